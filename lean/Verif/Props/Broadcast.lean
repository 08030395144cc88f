import Verif.Model.MixedVal
import Verif.Props.Mixed
import Verif.Props.BroadcastElem
/-!
**C85** The functions that index with masks, for numbers and arrays of different shapes: whenever the call is accepted (C81 says when), the value of
every result at a multi-index is the result of the scalar call on the values of the arguments at that multi-index; the latitudes of
`ecef2geodetic` are found at the multi-index without the axes of length 1.
-/
set_option linter.unusedSectionVars false
set_option linter.unusedSimpArgs false
namespace Pymap3d
open Py Kind

variable {F : Type} [Add F] [Sub F] [Mul F] [Div F] [Neg F] [Pow F Nat] [OfScientific F] [LT F] [LE F]
  [DecidableLT F] [DecidableLE F] [PyMath F]

/-- the multi-index without the positions on the axes of length 1 of the shape `s` -/
def dropUnit : List Nat → MultiIndex → MultiIndex
  | [], _ => fun _ => 0
  | d :: s, i => if d = 1 then dropUnit s (fun k => i (k + 1)) else consIdx (i 0) (dropUnit s fun k => i (k + 1))

/-- where the element of an array at `i` is found after `squeeze` -/
def squeezedIndex (k : Kind) (i : MultiIndex) : MultiIndex :=
  match k with
  | .arr s => dropUnit s i
  | _ => i

theorem restrictShape_cons (d : Nat) (s : List Nat) (i : MultiIndex) :
    restrictShape (d :: s) i = consIdx (if d = 1 then 0 else i 0) (restrictShape s fun k => i (k + 1)) := by
  funext k
  cases k with
  | zero => rfl
  | succ k => rfl

theorem consIdx_tail (a : Nat) (j : MultiIndex) : (fun k => consIdx a j (k + 1)) = j := rfl
theorem consIdx_head (a : Nat) (j : MultiIndex) : consIdx a j 0 = a := rfl

theorem expand_drop (s : List Nat) (i : MultiIndex) :
    restrictShape s (expandIdx s (restrictShape (s.filter (· ≠ 1)) (dropUnit s i))) = restrictShape s i := by
  induction s generalizing i with
  | nil => rfl
  | cons d s ih =>
    by_cases h : d = 1
    · have hf : (d :: s).filter (· ≠ 1) = s.filter (· ≠ 1) := by simp [h]
      rw [hf]
      simp only [expandIdx, dropUnit, if_pos h, restrictShape_cons, consIdx_tail, ih]
    · have hf : (d :: s).filter (· ≠ 1) = d :: s.filter (· ≠ 1) := by simp [h]
      rw [hf]
      simp only [expandIdx, dropUnit, if_neg h, restrictShape_cons, consIdx_tail, consIdx_head, ih]

theorem get_squeezeND (v : ND F) (i : MultiIndex) : (squeezeND v).get (squeezedIndex v.kind i) = v.get i := by
  cases v with
  | mk k e =>
    cases k with
    | py => rfl
    | np => rfl
    | bad => rfl
    | arr s =>
      simp only [squeezeND, squeezedIndex, ND.get]
      have hk : restrict (squeezeKind (.arr s)) (dropUnit s i) = restrictShape (s.filter (· ≠ 1)) (dropUnit s i) := by
        unfold squeezeKind
        by_cases h : s.filter (· ≠ 1) = []
        · simp only [h, if_true]; rfl
        · simp only [h, if_false]; rfl
      rw [hk]
      show e (restrictShape s _) = e (restrictShape s i)
      rw [expand_drop]

theorem restrict_fit {k K : Kind} (h : join K k = K) (i : MultiIndex) : restrict k (restrict K i) = restrict k i := by
  have := restrict_join_right K k i
  rwa [h] at this

section masks
variable (i : MultiIndex)
@[simp] theorem get_ndTest (p : F → Bool) (a : ND F) : (ndTest p a).get i = p (a.get i) := by
  simp only [ND.get, ndTest, restrict_idem]
@[simp] theorem get_ndBool (f : Bool → Bool → Bool) (m k : ND Bool) : (ndBool f m k).get i = f (m.get i) (k.get i) := by
  simp only [ND.get, ndBool, restrict_join_left, restrict_join_right]
@[simp] theorem get_ndNot (m : ND Bool) : (ndNot m).get i = !m.get i := by
  simp only [ND.get, ndNot, restrict_idem]
theorem get_ndAssign (a : ND F) (m : ND Bool) (v : ND F) (hm : join a.kind m.kind = a.kind) (hv : join a.kind v.kind = a.kind) :
    (ndAssign a m v).get i = if m.get i then v.get i else a.get i := by
  show (if m.get (restrict a.kind i) then v.get (restrict a.kind i) else a.get (restrict a.kind i)) = _
  have h1 : m.get (restrict a.kind i) = m.get i := by simp only [ND.get, restrict_fit hm]
  have h2 : v.get (restrict a.kind i) = v.get i := by simp only [ND.get, restrict_fit hv]
  have h3 : a.get (restrict a.kind i) = a.get i := by simp only [ND.get, restrict_idem]
  rw [h1, h2, h3]
theorem get_ndWhere (m : ND Bool) (c a : ND F) (hc : c.kind = .py) :
    (ndWhere m c a).get i = if m.get i then c.get i else a.get i := by
  show (if m.get (restrict (join m.kind a.kind) i) then c.get (restrict (join m.kind a.kind) i) else a.get (restrict (join m.kind a.kind) i)) = _
  have h1 : m.get (restrict (join m.kind a.kind) i) = m.get i := by simp only [ND.get, restrict_join_left]
  have h3 : a.get (restrict (join m.kind a.kind) i) = a.get i := by simp only [ND.get, restrict_join_right]
  have h2 : c.get (restrict (join m.kind a.kind) i) = c.get i := by simp only [ND.get, hc]; rfl
  rw [h1, h2, h3]
end masks

section kinds
variable (a b : ND F)
theorem kd_add : (a + b).kind = join a.kind b.kind := rfl
theorem kd_sub : (a - b).kind = join a.kind b.kind := rfl
theorem kd_mul : (a * b).kind = join a.kind b.kind := rfl
theorem kd_div : (a / b).kind = join a.kind b.kind := rfl
theorem kd_neg : (-a).kind = a.kind := rfl
theorem kd_pow (n : Nat) : (a ^ n).kind = a.kind := rfl
theorem kd_lit (m : Nat) (s : Bool) (e : Nat) : (OfScientific.ofScientific m s e : ND F).kind = .py := rfl
theorem kd_pi : (pi : ND F).kind = .py := rfl
theorem kd_sin : (sin a).kind = join a.kind .np := rfl
theorem kd_cos : (cos a).kind = join a.kind .np := rfl
theorem kd_tan : (tan a).kind = join a.kind .np := rfl
theorem kd_atan : (atan a).kind = join a.kind .np := rfl
theorem kd_sqrt : (sqrt a).kind = join a.kind .np := rfl
theorem kd_hypot : (hypot a b).kind = join (join a.kind b.kind) .np := rfl
theorem kd_test (p : F → Bool) : (ndTest p a).kind = a.kind := rfl
theorem kd_bool (f : Bool → Bool → Bool) (m k : ND Bool) : (ndBool f m k).kind = join m.kind k.kind := rfl
theorem kd_not (m : ND Bool) : (ndNot m).kind = m.kind := rfl
theorem kd_assign (m : ND Bool) (v : ND F) : (ndAssign a m v).kind = a.kind := rfl
theorem kd_where (m : ND Bool) (c : ND F) : (ndWhere m c a).kind = join m.kind a.kind := rfl
end kinds

/-- `_lat_alt_numpy` with everything of one kind -/
theorem latAltND_get (x y z hxy Beta : ND F) (ell : Option (Ellipsoid F)) (K : Kind) (hn : join K .np = K)
    (hx : join K x.kind = K) (hy : join K y.kind = K) (hz : z.kind = K) (hh : hxy.kind = K) (hB : Beta.kind = K) (i : MultiIndex) :
    let la := latAltND x y z hxy Beta (resolveEllipsoid (ellND ell))
    let a := (resolveEllipsoid ell).semimajor_axis
    let b := (resolveEllipsoid ell).semiminor_axis
    let B := Beta.get i
    let lim : F := pi / 2.0 - 2.220446049250313e-16
    let cosB := if B ≤ -lim then 0.0 else if lim ≤ B then 0.0 else cos B
    let alt := hypot (z.get i - b * sin B) (hxy.get i - a * cosB)
    la.1.get i = (if B ≤ -lim then -pi / 2.0 else if lim ≤ B then pi / 2.0 else atan (a / b * tan B)) ∧
    la.2.get i = (if ecefInside (x.get i) (y.get i) (z.get i) (resolveEllipsoid ell) then -alt else alt) ∧ la.1.kind = K ∧ la.2.kind = K := by
  have hK : join K K = K := join_idem K
  have hp : join K .py = K := join_py K
  have hnp : join .np K = K := by rw [join_comm]; exact hn
  have ka : (resolveEllipsoid (ellND ell)).semimajor_axis.kind = .py := by cases ell <;> rfl
  have kb : (resolveEllipsoid (ellND ell)).semiminor_axis.kind = .py := by cases ell <;> rfl
  intro la a b B lim cosB alt
  have e1 : join K (join (join x.kind y.kind) K) = K := by
    rw [← join_assoc, ← join_assoc, hx, hy, hK]
  refine ⟨?_, ?_, ?_, ?_⟩
  · simp only [la, latAltND]
    rw [get_ndWhere _ _ _ _ (by rfl), get_ndWhere _ _ _ _ (by rfl)]
    simp [B, lim, a, b]
  · simp only [la, latAltND]
    rw [get_ndAssign]
    · simp only [get_ndTest, ND.get_neg, ND.get_hypot, ND.get_sub, ND.get_mul, ND.get_add, ND.get_div, ND.get_pow, nd_a, nd_b, ND.get_sin]
      rw [get_ndWhere _ _ _ _ (by rfl), get_ndWhere _ _ _ _ (by rfl)]
      simp [B, lim, a, b, cosB, alt, ecefInside]
    · simp only [kd_hypot, kd_sub, kd_mul, kd_sin, kd_cos, kd_where, kd_test, kd_add, kd_div, kd_pow, ka, kb, hz, hh, hB, hn, hp, hK, py_join, e1, join_py]
    · simp only [kd_neg, join_idem]
  · simp only [la, latAltND, kd_where, kd_test, kd_atan, kd_mul, kd_div, kd_tan, hB, ka, kb, hn, hK, py_join]
  · simp only [la, latAltND, kd_assign, kd_hypot, kd_sub, kd_mul, kd_sin, kd_cos, kd_where, kd_test, ka, kb, hz, hh, hB, hn, hp, hK, py_join]

/-- `_beta_numpy` with everything of one kind -/
theorem betaNumpyND_get (mem : MultiIndex → F) (x y z r u E huE hxy : ND F) (ell : Option (Ellipsoid F)) (K : Kind) (hn : join K .np = K)
    (hx : join K x.kind = K) (hy : join K y.kind = K) (hz : z.kind = K) (hh : hxy.kind = K) (hr : r.kind = K) (hu : u.kind = K)
    (hE : E.kind = .np) (hH : huE.kind = K) (res : ND F × ND F)
    (h : betaNumpyND mem x y z r u E huE hxy (resolveEllipsoid (ellND ell)) = .ok res) (i : MultiIndex) :
    res.1.get (squeezedIndex K i) = (betaNumpy (x.get i) (y.get i) (z.get i) (u.get i) (E.get i) (huE.get i) (hxy.get i) (resolveEllipsoid ell)).1 ∧
    res.2.get i = (betaNumpy (x.get i) (y.get i) (z.get i) (u.get i) (E.get i) (huE.get i) (hxy.get i) (resolveEllipsoid ell)).2 := by
  have hK : join K K = K := join_idem K
  have hp : join K .py = K := join_py K
  have hnp : join .np K = K := by rw [join_comm]; exact hn
  have ka : (resolveEllipsoid (ellND ell)).semimajor_axis.kind = .py := by cases ell <;> rfl
  have kb : (resolveEllipsoid (ellND ell)).semiminor_axis.kind = .py := by cases ell <;> rfl
  unfold betaNumpyND at h
  dsimp only at h
  generalize hB0 : (⟨r.kind, mem⟩ : ND F) = B0 at h
  have kB0 : B0.kind = K := by rw [← hB0]; exact hr
  clear hB0
  generalize hib : ndBool or (ndTest npIsclose0 u) (ndTest npIsclose0 hxy) = ibad at h
  have kib : ibad.kind = K := by rw [← hib]; simp only [kd_bool, kd_test, hu, hh, hK]
  have gib : ibad.get i = (npIsclose0 (u.get i) || npIsclose0 (hxy.get i)) := by rw [← hib]; simp
  clear hib
  generalize hB1 : ndAssign B0 (ndNot ibad) (atan (huE / u * z / hxy)) = B1 at h
  have kB1 : B1.kind = K := by rw [← hB1]; exact kB0
  have gB1 : B1.get i = if !ibad.get i then atan (huE.get i / u.get i * z.get i / hxy.get i) else B0.get i := by
    rw [← hB1, get_ndAssign]
    · simp
    · simp only [kd_not, kB0, kib, hK]
    · simp only [kd_atan, kd_div, kd_mul, kB0, hH, hu, hz, hh, hK, hn]
  clear hB1
  generalize hB2 : ndAssign B1 (ndNot ibad) _ = B2 at h
  have kB2 : B2.kind = K := by rw [← hB2]; exact kB1
  have gB2 : B2.get i = if !ibad.get i then ecefBeta (z.get i) (u.get i) (E.get i) (huE.get i) (hxy.get i) (resolveEllipsoid ell) else B0.get i := by
    rw [← hB2, get_ndAssign]
    · simp only [get_ndNot, ND.get_add, ND.get_div, ND.get_mul, ND.get_sub, ND.get_pow, ND.get_sin, ND.get_cos, nd_a, nd_b, gB1, ND.get_lit]
      cases ibad.get i <;> simp [ecefBeta]
    · simp only [kd_not, kB1, kib, hK]
    · simp only [kd_add, kd_sub, kd_pow, kd_sin, kd_cos, kd_lit, kd_div, kd_mul, kB1, hH, hu, hz, hh, hE, ka, kb, hK, hn, hp, hnp, py_join, join_py]
  clear hB2 gB1
  generalize hiz : ndBool and ibad (ndTest npIsclose0 z) = iz at h
  have kiz : iz.kind = K := by rw [← hiz]; simp only [kd_bool, kd_test, kib, hz, hK]
  have giz : iz.get i = (ibad.get i && npIsclose0 (z.get i)) := by rw [← hiz]; simp
  clear hiz
  generalize hi1 : ndBool and (ndBool and ibad (ndNot iz)) (ndTest (fun v => decide ((0.0 : F) < v)) z) = i1 at h
  have ki1 : i1.kind = K := by rw [← hi1]; simp only [kd_bool, kd_not, kd_test, kib, kiz, hz, hK]
  have gi1 : i1.get i = (ibad.get i && !iz.get i && decide ((0.0 : F) < z.get i)) := by rw [← hi1]; simp
  clear hi1
  generalize hi2 : ndBool and (ndBool and ibad (ndNot iz)) (ndNot i1) = i2 at h
  have ki2 : i2.kind = K := by rw [← hi2]; simp only [kd_bool, kd_not, kd_test, kib, kiz, ki1, hz, hK]
  have gi2 : i2.get i = (ibad.get i && !iz.get i && !i1.get i) := by rw [← hi2]; simp
  clear hi2
  generalize hB3 : ndAssign (ndAssign (ndAssign B2 iz 0.0) i1 (pi / 2.0)) i2 (-pi / 2.0) = B3 at h
  have kB3 : B3.kind = K := by rw [← hB3]; exact kB2
  have gB3 : B3.get i = if i2.get i then -pi / 2.0 else if i1.get i then pi / 2.0 else if iz.get i then 0.0 else
      ecefBeta (z.get i) (u.get i) (E.get i) (huE.get i) (hxy.get i) (resolveEllipsoid ell) := by
    rw [← hB3, get_ndAssign, get_ndAssign, get_ndAssign, gB2]
    · simp only [ND.get_div, ND.get_neg, ND.get_pi, ND.get_lit]
      simp only [gi2, gi1, giz]
      cases ibad.get i <;> cases npIsclose0 (z.get i) <;> cases decide ((0.0 : F) < z.get i) <;> simp
    all_goals simp only [kd_assign, kd_div, kd_neg, kd_pi, kd_lit, kB2, kiz, ki1, ki2, hK, hp, py_join]
  clear hB3 gB2
  simp only [bind, Except.bind] at h
  split at h
  · cases h
  split at h
  · cases h
  split at h
  · cases h
  split at h
  · cases h
  simp only [pure, Except.pure, Except.ok.injEq] at h
  have hla := latAltND_get x y z hxy B3 ell K hn hx hy hz hh kB3 i
  dsimp only at hla
  rw [← h]
  obtain ⟨h1, h2, h3, h4⟩ := hla
  refine ⟨?_, ?_⟩
  · rw [← h3, get_squeezeND, h1, gB3, gi2, gi1, giz, gib]
    rfl
  · rw [h2, gB3, gi2, gi1, giz, gib]
    rfl

/-- an object with one element has the same value at every index -/
theorem restrict_single {k : Kind} (h : Single k) (i : MultiIndex) : restrict k i = fun _ => 0 := by
  cases k with
  | py => rfl
  | np => rfl
  | bad => exact h.elim
  | arr s =>
    have h : s.prod = 1 := h
    show restrictShape s i = _
    induction s generalizing i with
    | nil => rfl
    | cons d s ih =>
      rw [List.prod_cons] at h
      have hd : d = 1 := Nat.eq_one_of_mul_eq_one_right h
      have hs : s.prod = 1 := Nat.eq_one_of_mul_eq_one_left h
      rw [restrictShape_cons, if_pos hd, ih _ hs hs]
      funext k
      cases k <;> rfl

theorem get_single {v : ND F} (h : Single v.kind) (i : MultiIndex) : v.get (fun _ => 0) = v.get i := by
  simp only [ND.get, restrict_single h]

theorem floatND_ok {v w : ND F} (h : floatND v = .ok w) : Single v.kind ∧ w = ND.num (v.get fun _ => 0) := by
  unfold floatND at h
  split at h
  · rename_i k hk
    exact ⟨(floatOf_ok _).mp ⟨k, hk⟩, (Except.ok.inj h).symm⟩
  · cases h

/-- `_beta_scalar` -/
theorem betaScalarND_get (x y z u E huE hxy : ND F) (ell : Option (Ellipsoid F)) (i : MultiIndex)
    (hx : x.get (fun _ => 0) = x.get i) (hy : y.get (fun _ => 0) = y.get i) (hz : z.get (fun _ => 0) = z.get i)
    (hu : u.get (fun _ => 0) = u.get i) (hh : hxy.get (fun _ => 0) = hxy.get i) :
    (betaScalarND x y z u E huE hxy (resolveEllipsoid (ellND ell))).1.get i =
      (betaScalar npIsclose0 (x.get i) (y.get i) (z.get i) (u.get i) (E.get i) (huE.get i) (hxy.get i) (resolveEllipsoid ell)).1 ∧
    (betaScalarND x y z u E huE hxy (resolveEllipsoid (ellND ell))).2.get i =
      (betaScalar npIsclose0 (x.get i) (y.get i) (z.get i) (u.get i) (E.get i) (huE.get i) (hxy.get i) (resolveEllipsoid ell)).2 := by
  unfold betaScalarND betaScalar
  dsimp only
  rw [hz, hu, hh]
  have hin : decide ((x ^ 2 / (resolveEllipsoid (ellND ell)).semimajor_axis ^ 2 + y ^ 2 / (resolveEllipsoid (ellND ell)).semimajor_axis ^ 2 +
      z ^ 2 / (resolveEllipsoid (ellND ell)).semiminor_axis ^ 2).get (fun _ => 0) < 1.0) = ecefInside (x.get i) (y.get i) (z.get i) (resolveEllipsoid ell) := by
    simp [ecefInside, hx, hy, hz]
  generalize hB : (if (feq (u.get i) 0.0 || feq (hxy.get i) 0.0) = true then
    if npIsclose0 (z.get i) = true then (0.0 : ND F) else if 0.0 < z.get i then pi / 2.0 else -pi / 2.0 else _) = B
  have gB : B.get i = if (feq (u.get i) 0.0 || feq (hxy.get i) 0.0) = true then
      if npIsclose0 (z.get i) = true then (0.0 : F) else if 0.0 < z.get i then pi / 2.0 else -pi / 2.0 else
      ecefBeta (z.get i) (u.get i) (E.get i) (huE.get i) (hxy.get i) (resolveEllipsoid ell) := by
    rw [← hB]
    split
    · split
      · rfl
      · split
        · simp
        · simp
    · simp [ecefBeta]
  rw [← gB]
  refine ⟨by simp, ?_⟩
  have e : ∀ (c d : Bool) (A : ND F), c = d → (if c = true then -A else A).get i = if d = true then -A.get i else A.get i := by
    intro c d A hcd
    subst hcd
    cases c <;> simp
  have := e _ _ (hypot (z - (resolveEllipsoid (ellND ell)).semiminor_axis * sin B) (hxy - (resolveEllipsoid (ellND ell)).semimajor_axis * cos B)) hin
  simp only [decide_eq_true_eq] at this
  rw [this]
  simp

theorem together3_fit1 (x y z : Kind) : join (together [x, y, z]) x = together [x, y, z] := by
  show join (join x (join y (join z .np))) x = join x (join y (join z .np)); ac_rfl
theorem together3_fit2 (x y z : Kind) : join (together [x, y, z]) y = together [x, y, z] := by
  show join (join x (join y (join z .np))) y = join x (join y (join z .np)); ac_rfl
theorem together3_fit3 (x y z : Kind) : join (together [x, y, z]) z = together [x, y, z] := by
  show join (join x (join y (join z .np))) z = join x (join y (join z .np)); ac_rfl
theorem together3_eq (x y z : Kind) : join (join (join x y) z) .np = together [x, y, z] := by
  show _ = join x (join y (join z .np)); ac_rfl

/-- **C85.** `ecef2geodetic` with numbers and arrays of different shapes -/
theorem bc_ecef2geodetic (mem : MultiIndex → F) (x y z : ND F) (ell : Option (Ellipsoid F)) (deg : Bool) (r : ND F × ND F × ND F)
    (h : ecef2geodeticND mem x y z (ellND ell) deg = .ok r) (i : MultiIndex) :
    let bk : Backend := if z.kind = .py then .npScalar else .npArray
    let j := if z.kind = .py then i else squeezedIndex (together [x.kind, y.kind, z.kind]) i
    let s := ecef2geodetic bk (x.get i) (y.get i) (z.get i) ell deg
    r.1.get j = s.1 ∧ r.2.1.get i = s.2.1 ∧ r.2.2.get i = s.2.2 := by
  have ka : (resolveEllipsoid (ellND ell)).semimajor_axis.kind = .py := by cases ell <;> rfl
  have kb : (resolveEllipsoid (ellND ell)).semiminor_axis.kind = .py := by cases ell <;> rfl
  unfold ecef2geodeticND at h
  dsimp only at h
  generalize hr : sqrt (x ^ 2 + y ^ 2 + z ^ 2) = rr at h
  have kr : rr.kind = together [x.kind, y.kind, z.kind] := by
    rw [← hr]
    exact together3_eq _ _ _
  generalize hE : sqrt ((resolveEllipsoid (ellND ell)).semimajor_axis ^ 2 - (resolveEllipsoid (ellND ell)).semiminor_axis ^ 2) = E at h
  have kE : E.kind = .np := by rw [← hE]; simp only [kd_sqrt, kd_sub, kd_pow, ka, kb]; rfl
  have gE : E.get i = sqrt ((resolveEllipsoid ell).semimajor_axis ^ 2 - (resolveEllipsoid ell).semiminor_axis ^ 2) := by rw [← hE]; simp
  generalize hu : sqrt (0.5 * (rr ^ 2 - E ^ 2) + 0.5 * hypot (rr ^ 2 - E ^ 2) (2.0 * E * z)) = u at h
  have gu : u.get i = ecefU (x.get i) (y.get i) (z.get i) (resolveEllipsoid ell) := by
    rw [← hu]
    simp [ecefU, ← hr, gE]
  generalize hh : hypot x y = hxy at h
  have gh : hxy.get i = hypot (x.get i) (y.get i) := by rw [← hh]; simp
  generalize hH : hypot u E = huE at h
  have gH : huE.get i = hypot (ecefU (x.get i) (y.get i) (z.get i) (resolveEllipsoid ell))
      (sqrt ((resolveEllipsoid ell).semimajor_axis ^ 2 - (resolveEllipsoid ell).semiminor_axis ^ 2)) := by rw [← hH]; simp [gu, gE]
  have kh : hxy.kind = join (join x.kind y.kind) .np := by rw [← hh]; rfl
  generalize hF : together [x.kind, y.kind, z.kind] = K at kr ⊢
  have hFx : join K x.kind = K := by rw [← hF]; exact together3_fit1 _ _ _
  have hFy : join K y.kind = K := by rw [← hF]; exact together3_fit2 _ _ _
  have hFz : join K z.kind = K := by rw [← hF]; exact together3_fit3 _ _ _
  have hFn : join K .np = K := by rw [← hF]; exact together_np _
  have hKpy : K ≠ .py := by rw [← hF]; exact together_ne_py _
  have ku : u.kind = K := by
    rw [← hu]
    simp only [kd_sqrt, kd_add, kd_sub, kd_mul, kd_lit, kd_hypot, kd_pow, kr, kE, py_join, hFn]
    rw [join_comm .np, ← join_assoc K z.kind, hFz]
    simp only [hFn, join_idem]
  have kH : huE.kind = K := by rw [← hH]; simp only [kd_hypot, ku, kE, hFn]
  have hFxy : join K hxy.kind = K := by rw [kh, ← join_assoc, ← join_assoc, hFx, hFy, hFn]
  have hck : checkKind rr.kind = .ok rr.kind ∧ K ≠ .bad := by
    rw [kr]
    cases hc : K with
    | bad => rw [kr, hc] at h; simp [checkKind, bind, Except.bind] at h
    | _ => exact ⟨rfl, by simp⟩
  obtain ⟨hck, hbad⟩ := hck
  rw [hck] at h
  simp only [bind, Except.bind] at h
  have fin : ∀ (la : ND F × ND F) (lr : ND F × ND F × ND F) (bk : Backend) (j : MultiIndex),
      (outAngle deg la.1, outAngle deg (atan2 y x), la.2) = lr →
      (∀ t : F × F, t = (match bk with
        | .npArray => betaNumpy (x.get i) (y.get i) (z.get i) (u.get i) (E.get i) (huE.get i) (hxy.get i) (resolveEllipsoid ell)
        | .npScalar => betaScalar npIsclose0 (x.get i) (y.get i) (z.get i) (u.get i) (E.get i) (huE.get i) (hxy.get i) (resolveEllipsoid ell)
        | .pure => betaScalar mathIsclose0 (x.get i) (y.get i) (z.get i) (u.get i) (E.get i) (huE.get i) (hxy.get i) (resolveEllipsoid ell)) →
        la.1.get j = t.1 ∧ la.2.get i = t.2) →
      lr.1.get j = (ecef2geodetic bk (x.get i) (y.get i) (z.get i) ell deg).1 ∧
        lr.2.1.get i = (ecef2geodetic bk (x.get i) (y.get i) (z.get i) ell deg).2.1 ∧
        lr.2.2.get i = (ecef2geodetic bk (x.get i) (y.get i) (z.get i) ell deg).2.2 := by
    intro la lr bk j hl ht
    obtain ⟨h1, h2⟩ := ht _ rfl
    rw [gu, gE, gH, gh] at h1 h2
    rw [← hl]
    refine ⟨?_, ?_, ?_⟩
    · show (outAngle deg la.1).get j = _
      rw [ND.get_outAngle, h1]; rfl
    · show (outAngle deg (atan2 y x)).get i = _
      rw [ND.get_outAngle, ND.get_atan2]; rfl
    · show la.2.get i = _
      rw [h2]; rfl
  by_cases hz : z.kind = .py
  · -- Python number: `_beta_scalar`
    simp only [hz, if_true]
    have hm : ∃ m, betaNumpyND mem x y z rr u E huE hxy (resolveEllipsoid (ellND ell)) = .error (.typeError m) := by
      have hib : (ndBool or (ndTest npIsclose0 u) (ndTest npIsclose0 hxy)).kind = K := by
        simp only [kd_bool, kd_test, ku, hFxy]
      have hs : maskGet K K = .ok () := by
        cases hc : K with
        | py => exact absurd hc hKpy
        | np => rfl
        | arr s => simp [maskGet]
        | bad => exact absurd hc hbad
      unfold betaNumpyND
      have hpy : maskGet .py K = .error (.typeError "'float' object is not subscriptable") := rfl
      simp only [hib, kH, ku, hs, hz, hpy, bind, Except.bind]
      exact ⟨_, rfl⟩
    obtain ⟨m, hm⟩ := hm
    rw [hm] at h
    simp only at h
    cases hx : floatND x with
    | error e => simp [hx] at h
    | ok fx =>
      cases hy : floatND y with
      | error e => simp [hx, hy] at h
      | ok fy =>
        cases hzf : floatND z with
        | error e => simp [hx, hy, hzf] at h
        | ok fz =>
          simp only [hx, hy, hzf, pure, Except.pure, Except.ok.injEq] at h
          obtain ⟨sx, ex⟩ := floatND_ok hx
          obtain ⟨sy, ey⟩ := floatND_ok hy
          obtain ⟨sz, ez⟩ := floatND_ok hzf
          have gx := get_single sx i
          have gy := get_single sy i
          have gz := get_single sz i
          have gh0 : hxy.get (fun _ => 0) = hxy.get i := by rw [← hh]; simp [gx, gy]
          have gu0 : u.get (fun _ => 0) = u.get i := by
            have gE0 : E.get (fun _ => 0) = E.get i := by rw [← hE]; simp
            rw [← hu, ← hr]; simp [gx, gy, gz, gE0]
          have hb := betaScalarND_get fx fy fz u E huE hxy ell i (by rw [ex]; rfl) (by rw [ey]; rfl) (by rw [ez]; rfl) gu0 gh0
          have fgx : fx.get i = x.get i := by rw [ex]; exact gx
          have fgy : fy.get i = y.get i := by rw [ey]; exact gy
          have fgz : fz.get i = z.get i := by rw [ez]; exact gz
          rw [fgx, fgy, fgz] at hb
          exact fin _ r .npScalar i h (by intro t ht; rw [ht]; exact hb)
  · simp only [hz, if_false]
    cases hb : betaNumpyND mem x y z rr u E huE hxy (resolveEllipsoid (ellND ell)) with
    | error e =>
      exfalso
      have hib : (ndBool or (ndTest npIsclose0 u) (ndTest npIsclose0 hxy)).kind = K := by
        simp only [kd_bool, kd_test, ku, hFxy]
      have hs : maskGet K K = .ok () := by
        cases hc : K with
        | py => exact absurd hc hKpy
        | np => rfl
        | arr s => simp [maskGet]
        | bad => exact absurd hc hbad
      have hne : hxy.kind ≠ .py := by
        rw [kh]; generalize join x.kind y.kind = k; cases k <;> simp [join]
      unfold betaNumpyND at hb
      simp only [hib, kH, ku, hs, bind, Except.bind] at hb
      rcases maskGet_full z.kind K hbad hKpy hFz with ⟨hz', -⟩ | ⟨-, -, hm⟩ | ⟨-, -, hm⟩
      · exact hz hz'
      · rcases maskGet_full hxy.kind K hbad hKpy hFxy with ⟨hz', -⟩ | ⟨-, -, hm'⟩ | ⟨-, -, hm'⟩
        · exact hne hz'
        · simp [hm, hm', pure, Except.pure] at hb
        · simp only [hm, hm', Except.error.injEq] at hb
          subst hb
          unfold betaNumpyND at h
          simp [hib, kH, ku, hs, bind, Except.bind, hm, hm'] at h
      · simp only [hm, Except.error.injEq] at hb
        subst hb
        unfold betaNumpyND at h
        simp [hib, kH, ku, hs, bind, Except.bind, hm] at h
    | ok la =>
      have hz1 : z.kind = K ∧ hxy.kind = K := by
        have hib : (ndBool or (ndTest npIsclose0 u) (ndTest npIsclose0 hxy)).kind = K := by
          simp only [kd_bool, kd_test, ku, hFxy]
        have hs : maskGet K K = .ok () := by
          cases hc : K with
          | py => exact absurd hc hKpy
          | np => rfl
          | arr s => simp [maskGet]
          | bad => exact absurd hc hbad
        have hne : hxy.kind ≠ .py := by
          rw [kh]; generalize join x.kind y.kind = k; cases k <;> simp [join]
        have hb' := hb
        unfold betaNumpyND at hb'
        simp only [hib, kH, ku, hs, bind, Except.bind] at hb'
        have up : ∀ k : Kind, k ≠ .py → join k .np = K → k = K := by
          intro k hk hj
          cases k <;> first | exact absurd rfl hk | exact hj
        rcases maskGet_full z.kind K hbad hKpy hFz with ⟨hz', -⟩ | ⟨-, hj, hm⟩ | ⟨-, -, hm⟩
        · exact absurd hz' hz
        · rcases maskGet_full hxy.kind K hbad hKpy hFxy with ⟨hz', -⟩ | ⟨-, hj', hm'⟩ | ⟨-, -, hm'⟩
          · exact absurd hz' hne
          · exact ⟨up _ hz hj, up _ hne hj'⟩
          · simp [hm, hm'] at hb'
        · simp [hm] at hb'
      rw [hb] at h
      simp only [pure, Except.pure, Except.ok.injEq] at h
      have hg := betaNumpyND_get mem x y z rr u E huE hxy ell K hFn hFx hFy hz1.1 hz1.2 kr ku kE kH la hb i
      exact fin la r .npArray _ h (by intro t ht; rw [ht]; exact hg)

end Pymap3d
