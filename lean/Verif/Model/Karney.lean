import Verif.Model.Ellipsoid
/-!
`/repo/src/pymap3d/karney.py`

Simplifications: NaN input is not represented (`isnan` is false: lines 85, 504); the results `M12`, `M21` of `_Lengths` and the
variable `a12` of `_Inverse` are computed by the code and thrown away by every caller, and are not modelled; the work arrays `C1a`, `C2a`, `C3a`
are recomputed before each use and are therefore modelled as values; a table look-up outside the table (Python: `IndexError`) reads `0.0`
(no such look-up occurs: `Props/KarneySeries.lean` computes every coefficient from the tables).  An assignment that only turns `-0.0` into `0.0` (lines 97-100) is a no-op.
-/
namespace Pymap3d
open Py

variable {F : Type} [Add F] [Sub F] [Mul F] [Div F] [Neg F] [Pow F Nat] [OfScientific F] [LT F] [LE F]
  [DecidableLT F] [DecidableLE F] [PyMath F]

/-- `karney.py` 27 -/
def kTol0 : F := 2.220446049250313e-16
/-- 26 -/
def kTiny : F := sqrt 2.220446049250313e-16
/-- 28 -/
def kTol1 : F := 200.0 * kTol0
/-- 29 -/
def kTol2 : F := sqrt kTol0
/-- 30 -/
def kXthresh : F := 1000.0 * kTol2

/-- 49-55 `_sum_error` -/
def sumError (u v : F) : F × F :=
  let s := u + v
  let up := s - v
  let vpp := s - up
  let up := up - u
  let vpp := vpp - v
  (s, -(up + vpp))

/-- 58-64 `_AngNormalize` -/
def angNormalize (x : F) : F :=
  let y := fmod x 360.0
  if y ≤ -180.0 then y + 360.0
  else if 180.0 < y then y - 360.0
  else y

/-- 67-73 `_AngRound` -/
def angRound (x : F) : F :=
  let z : F := 1.0 / 16.0
  let y := abs x
  let y := if y < z then z - (z - y) else y
  copysign y x

/-- 76-80 `_AngDiff` -/
def angDiff (x y : F) : F × F :=
  let (d, t) := sumError (-x) y
  let d := angNormalize d
  sumError (if feq (abs d) 180.0 then copysign 180.0 (-t) else d) t

/-- 83-100 `_sincosd`: (sine, cosine) of an angle in degrees -/
def sincosd (x : F) : F × F :=
  let r := fmod x 360.0
  let q := roundEven (r / 90.0)
  let r := r - 90.0 * ofInt q
  let r := radians r
  let s := sin r
  let c := cos r
  let q := q % 4
  if q = 1 then (c, -s)
  else if q = 2 then (-s, -c)
  else if q = 3 then (-c, s)
  else (s, c)

/-- 103-118 `_atan2d` -/
def atan2d (y x : F) : F :=
  let swap := decide (abs x < abs y)
  let (x, y) := if swap then (y, x) else (x, y)
  let q : Int := if swap then 2 else 0
  let (x, q) := if x < 0.0 then (-x, q + 1) else (x, q)
  let ang := degrees (atan2 y x)
  if q = 1 then copysign 180.0 y - ang
  else if q = 2 then 90.0 - ang
  else if q = 3 then -90.0 + ang
  else ang

/-- 121-123 `_norm2` -/
def norm2 (x y : F) : F × F :=
  let r := hypot x y
  (x / r, y / r)

/-- table look-up -/
def tab (p : List F) (i : Nat) : F := p.getD i 0.0

/-- 126-130 `_polyval` -/
def polyval (N : Nat) (p : List F) (s : Nat) (x : F) : F :=
  (List.range N).foldl (fun y i => y * x + tab p (s + (i + 1))) (tab p s)

/-- 136 -/
def A1coeff : List F := [1, 4, 64, 0, 256].map ofInt
/-- 137-144 -/
def C1coeff : List F := [
    -1, 6, -16, 32,
    -9, 64, -128, 2048,
    9, -16, 768,
    3, -5, 512,
    -7, 1280,
    -7, 2048].map ofInt
/-- 145-152 -/
def C1pcoeff : List F := [
    205, -432, 768, 1536,
    4005, -4736, 3840, 12288,
    -225, 116, 384,
    -7173, 2695, 7680,
    3467, 7680,
    38081, 61440].map ofInt
/-- 153 -/
def A2coeff : List F := [-11, -28, -192, 0, 256].map ofInt
/-- 154-161 -/
def C2coeff : List F := [
    1, 2, 16, 32,
    35, 64, 384, 2048,
    15, 80, 768,
    7, 35, 512,
    63, 1280,
    77, 2048].map ofInt
/-- 162-169 -/
def A3coeff : List F := [
    -3, 128,
    -2, -3, 64,
    -1, -3, -1, 16,
    3, -1, -2, 8,
    1, -1, 2,
    1, 1].map ofInt
/-- 170-186 -/
def C3coeff : List F := [
    3, 128,
    2, 5, 128,
    -1, 3, 3, 64,
    -1, 0, 1, 8,
    -1, 1, 4,
    5, 256,
    1, 3, 128,
    -3, -2, 3, 64,
    1, -3, 2, 32,
    7, 512,
    -10, 9, 384,
    5, -9, 5, 192,
    7, 512,
    -14, 7, 512,
    21, 2560].map ofInt

/-- 212-215 `_A1m1f` -/
def A1m1f (eps : F) : F :=
  let eps2 := eps * eps
  let t := polyval 3 A1coeff 0 eps2 / tab A1coeff 4
  (t + eps) / (1.0 - eps)

/-- the loop shared by `_C1f` (218-226), `_C1pf` (229-237) and `_C2f` (246-254): entries `l`, `l+1`, … (`k` of them) -/
def cLoop (nC : Nat) (p : List F) (eps : F) : Nat → Nat → F → Nat → List F
  | 0, _, _, _ => []
  | k + 1, l, d, o =>
    let m := (nC - l) / 2
    (d * polyval m p o (eps * eps) / tab p (o + m + 1)) :: cLoop nC p eps k (l + 1) (d * eps) (o + m + 2)

/-- 218-226 `_C1f`: the array `c`, `c[0] = 0.0` -/
def C1f (eps : F) : List F := 0.0 :: cLoop 6 C1coeff eps 6 1 eps 0
/-- 229-237 `_C1pf` -/
def C1pf (eps : F) : List F := 0.0 :: cLoop 6 C1pcoeff eps 6 1 eps 0
/-- 246-254 `_C2f` -/
def C2f (eps : F) : List F := 0.0 :: cLoop 6 C2coeff eps 6 1 eps 0

/-- 240-243 `_A2m1f` -/
def A2m1f (eps : F) : F :=
  let eps2 := eps * eps
  let t := polyval 3 A2coeff 0 eps2 / tab A2coeff 4
  (t - eps) / (1.0 + eps)

/-- 265-269: the `while n > 0` loop of `_SinCosSeries` (entered with `n` even) -/
def scsLoop (ar : F) (c : List F) : Nat → F → F → F × F
  | n + 2, y0, y1 =>
    let y1 := ar * y0 - y1 + tab c (n + 2)
    let y0 := ar * y1 - y0 + tab c (n + 1)
    scsLoop ar c n y0 y1
  | _, y0, y1 => (y0, y1)

/-- 257-273 `_SinCosSeries` -/
def sinCosSeries (sinp : Bool) (sinx cosx : F) (c : List F) (n : Nat) : F :=
  let ar := 2.0 * (cosx - sinx) * (cosx + sinx)
  let (y0, y1) := if n % 2 = 1 then scsLoop ar c (n - 1) (tab c n) 0.0 else scsLoop ar c n 0.0 0.0
  if sinp then 2.0 * sinx * cosx * y0 else cosx * (y0 - y1)

/-- 276-300 `_Astroid` -/
def astroid (x y : F) : F :=
  let p := x * x
  let q := y * y
  let r := (p + q - 1.0) / 6.0
  if ¬ (feq q 0.0 = true ∧ r ≤ 0.0) then
    let S := p * q / 4.0
    let r2 := r * r
    let r3 := r * r2
    let disc := S * (S + 2.0 * r3)
    let u := r
    let u :=
      if 0.0 ≤ disc then
        let T3 := S + r3
        let T3 := T3 + (if T3 < 0.0 then -sqrt disc else sqrt disc)
        let T := if 0.0 ≤ T3 then power T3 (1.0 / 3.0) else -(power (-T3) (1.0 / 3.0))
        u + (T + (if feq T 0.0 then 0.0 else r2 / T))
      else
        let ang := atan2 (sqrt (-disc)) (-(S + r3))
        u + 2.0 * r * cos (ang / 3.0)
    let v := sqrt (u * u + q)
    let uv := if 0.0 ≤ u then u + v else q / (v - u)
    let w := (uv - q) / (2.0 * v)
    uv / (sqrt (uv + w * w) + w)
  else 0.0

/-- 306-332: the attributes of `_Geodesic` that the public functions use (`_C4x` and `_etol2` are computed but never read) -/
structure Geod (F : Type) where
  a : F
  f : F
  f1 : F
  e2 : F
  ep2 : F
  n : F
  b : F
  c2 : F
  A3x : List F
  C3x : List F

/-- 334-343 `_compute_A3x`: entries for `j = jj-1, …, 0` -/
def a3xLoop (n : F) : Nat → Nat → List F
  | 0, _ => []
  | j + 1, o =>
    let m := min (6 - j - 1) j
    (polyval m A3coeff o n / tab A3coeff (o + m + 1)) :: a3xLoop n j (o + m + 2)

/-- 345-355 `_compute_C3x`, inner loop for fixed `l`: `j = l + k - 1, …, l`; also returns the offset `o` -/
def c3xInner (n : F) (l : Nat) : Nat → Nat → List F × Nat
  | 0, o => ([], o)
  | k + 1, o =>
    let j := l + k
    let m := min (6 - j - 1) j
    let r := c3xInner n l k (o + m + 2)
    ((polyval m C3coeff o n / tab C3coeff (o + m + 1)) :: r.1, r.2)

/-- 345-355 `_compute_C3x`, outer loop over `l, l+1, …` (`k` of them) -/
def c3xLoop (n : F) : Nat → Nat → Nat → List F
  | 0, _, _ => []
  | k + 1, l, o =>
    let r := c3xInner n l (6 - l) o
    r.1 ++ c3xLoop n k (l + 1) r.2

/-- 308-332 `_Geodesic.__init__` -/
def Geod.make (ell : Ellipsoid F) : Geod F :=
  let a := ell.semimajor_axis
  let f := ell.flattening
  let f1 := 1.0 - f
  let e2 := f * (2.0 - f)
  let ep2 := e2 / (f1 ^ 2)
  let n := f / (2.0 - f)
  let b := a * f1
  let c2 :=
    if feq e2 0.0 then a ^ 2
    else if 0.0 < e2 then
      let e := sqrt e2
      (a ^ 2 + b ^ 2 * atanh e / e) / 2.0
    else
      let e := sqrt (-e2)
      (a ^ 2 + b ^ 2 * atan e / e) / 2.0
  ⟨a, f, f1, e2, ep2, n, b, c2, a3xLoop n 6 0, c3xLoop n 5 1 0⟩

/-- 369-370 `_A3f` -/
def Geod.A3f (g : Geod F) (eps : F) : F := polyval 5 g.A3x 0 eps

/-- 372-379 `_C3f`, entries `l, l+1, …` (`k` of them) -/
def c3fLoop (C3x : List F) (eps : F) : Nat → Nat → F → Nat → List F
  | 0, _, _, _ => []
  | k + 1, l, mult, o =>
    let mult := mult * eps
    let m := 6 - 1 - l
    (mult * polyval m C3x o eps) :: c3fLoop C3x eps k (l + 1) mult (o + m + 1)

/-- 372-379 `_C3f`: the array `c`, `c[0] = 0.0` -/
def Geod.C3f (g : Geod F) (eps : F) : List F := 0.0 :: c3fLoop g.C3x eps 5 1 1.0 0

/-- 390-427 `_Lengths` with the mask `_OUT`: `(s12b, m12b)` -/
def Geod.lengthsOut (_g : Geod F) (eps sig12 ssig1 csig1 dn1 ssig2 csig2 dn2 : F) : F × F :=
  let A1 := A1m1f eps
  let C1a := C1f eps
  let A2 := A2m1f eps
  let C2a := C2f eps
  let m0x := A1 - A2
  let A2 := 1.0 + A2
  let A1 := 1.0 + A1
  let B1 := sinCosSeries true ssig2 csig2 C1a 6 - sinCosSeries true ssig1 csig1 C1a 6
  let s12b := A1 * (sig12 + B1)
  let B2 := sinCosSeries true ssig2 csig2 C2a 6 - sinCosSeries true ssig1 csig1 C2a 6
  let J12 := m0x * sig12 + (A1 * B1 - A2 * B2)
  let m12b := dn2 * (csig1 * ssig2) - dn1 * (ssig1 * csig2) - csig1 * csig2 * J12
  (s12b, m12b)

/-- 390-427 `_Lengths` with the mask `_REDUCEDLENGTH`: `(m12b, m0)` -/
def Geod.lengthsReduced (_g : Geod F) (eps sig12 ssig1 csig1 dn1 ssig2 csig2 dn2 : F) : F × F :=
  let A1 := A1m1f eps
  let C1a := C1f eps
  let A2 := A2m1f eps
  let C2a := C2f eps
  let m0x := A1 - A2
  let A2 := 1.0 + A2
  let A1 := 1.0 + A1
  let C2a := List.zipWith (fun x y => A1 * x - A2 * y) C1a C2a
  let J12 := m0x * sig12 + (sinCosSeries true ssig2 csig2 C2a 6 - sinCosSeries true ssig1 csig1 C2a 6)
  let m12b := dn2 * (csig1 * ssig2) - dn1 * (ssig1 * csig2) - csig1 * csig2 * J12
  (m12b, m0x)

/-- `k2 / (2 (1 + sqrt(1 + k2)) + k2)`: lines 466, 545, 758 -/
def epsOf (k2 : F) : F := k2 / (2.0 * (1.0 + sqrt (1.0 + k2)) + k2)

/-- 429-507 `_InverseStart`: `(salp1, calp1)`.  The other results are `sig12 = -1.0` on every path (the short-line block 461-463 is
`pass`), and NaN. -/
def Geod.inverseStart (g : Geod F) (sbet1 cbet1 dn1 sbet2 cbet2 dn2 lam12 slam12 clam12 : F) : F × F :=
  let sbet12 := sbet2 * cbet1 - cbet2 * sbet1
  let cbet12 := cbet2 * cbet1 + sbet2 * sbet1
  let sbet12a := sbet2 * cbet1 + cbet2 * sbet1
  let shortline := decide (0.0 ≤ cbet12) && decide (sbet12 < 0.5) && decide (cbet2 * lam12 < 0.5)
  let (somg12, comg12) :=
    if shortline then
      let sbetm2 := (sbet1 + sbet2) ^ 2
      let sbetm2 := sbetm2 / (sbetm2 + (cbet1 + cbet2) ^ 2)
      let dnm := sqrt (1.0 + g.ep2 * sbetm2)
      let omg12 := lam12 / (g.f1 * dnm)
      (sin omg12, cos omg12)
    else (slam12, clam12)
  let salp1 := cbet2 * somg12
  let calp1 :=
    if 0.0 ≤ comg12 then sbet12 + cbet2 * sbet1 * somg12 ^ 2 / (1.0 + comg12)
    else sbet12a - cbet2 * sbet1 * somg12 ^ 2 / (1.0 - comg12)
  let ssig12 := hypot salp1 calp1
  let csig12 := sbet1 * sbet2 + cbet1 * cbet2 * comg12
  let (salp1, calp1) :=
    if ¬ (0.0 ≤ csig12 ∨ 6.0 * abs g.f * pi * cbet1 ^ 2 ≤ ssig12) then
      let (x, y, lamscale) :=
        if 0.0 ≤ g.f then
          let k2 := sbet1 ^ 2 * g.ep2
          let eps := epsOf k2
          let lamscale := g.f * cbet1 * g.A3f eps * pi
          let betscale := lamscale * cbet1
          ((lam12 - pi) / lamscale, sbet12a / betscale, lamscale)
        else
          let cbet12a := cbet2 * cbet1 - sbet2 * sbet1
          let bet12a := atan2 sbet12a cbet12a
          let (m12b, m0) := g.lengthsReduced g.n (pi + bet12a) sbet1 (-cbet1) dn1 sbet2 cbet2 dn2
          let x := -1.0 + m12b / (cbet1 * cbet2 * m0 * pi)
          let betscale := if x < -0.01 then sbet12a / x else -g.f * cbet1 ^ 2 * pi
          let lamscale := betscale / cbet1
          (x, (lam12 - pi) / lamscale, lamscale)
      if y < -kTol1 ∧ -1.0 - kXthresh < x then
        if 0.0 ≤ g.f then
          let salp1 := pyMin 1.0 (-x)
          (salp1, -sqrt (1.0 - salp1 ^ 2))
        else
          let calp1 := pyMax (-1.0) x
          (sqrt (1.0 - calp1 ^ 2), calp1)
      else
        let k := astroid x y
        let omg12a := lamscale * (if 0.0 ≤ g.f then -x * k / (1.0 + k) else -y * (1.0 + k) / k)
        let somg12 := sin omg12a
        let comg12 := -cos omg12a
        (cbet2 * somg12, sbet12a - cbet2 * sbet1 * somg12 ^ 2 / (1.0 - comg12))
    else (salp1, calp1)
  if 0.0 < salp1 then norm2 salp1 calp1 else (1.0, 0.0)

/-- results of `_Lambda12` that its caller uses -/
structure Lam12 (F : Type) where
  v : F
  salp2 : F
  calp2 : F
  sig12 : F
  ssig1 : F
  csig1 : F
  ssig2 : F
  csig2 : F
  eps : F
  dlam12 : F

/-- 509-566 `_Lambda12`.  With `diffp` false `dlam12` is NaN and is not read by the caller (line 692 tests `numit < _maxit1` first);
here it is `0.0`. -/
def Geod.lambda12 (g : Geod F) (sbet1 cbet1 dn1 sbet2 cbet2 dn2 salp1 calp1 slam120 clam120 : F) (diffp : Bool) : Lam12 F :=
  let calp1 := if feq sbet1 0.0 && feq calp1 0.0 then -kTiny else calp1
  let salp0 := salp1 * cbet1
  let calp0 := hypot calp1 (salp1 * sbet1)
  let somg1 := salp0 * sbet1
  let comg1 := calp1 * cbet1
  let (ssig1, csig1) := norm2 sbet1 comg1
  let salp2 := if feq cbet2 cbet1 then salp1 else salp0 / cbet2
  let calp2 :=
    if ¬ (feq cbet2 cbet1 = true) ∨ ¬ (feq (abs sbet2) (-sbet1) = true) then
      sqrt ((calp1 * cbet1) ^ 2 + (if feq cbet2 cbet1 then (sbet1 - sbet2) * (sbet1 + sbet2) else (cbet2 - cbet1) * (cbet1 + cbet2))) / cbet2
    else abs calp1
  let somg2 := salp0 * sbet2
  let comg2 := calp2 * cbet2
  let (ssig2, csig2) := norm2 sbet2 comg2
  let sig12 := atan2 (pyMax 0.0 (csig1 * ssig2 - ssig1 * csig2)) (csig1 * csig2 + ssig1 * ssig2)
  let somg12 := pyMax 0.0 (comg1 * somg2 - somg1 * comg2)
  let comg12 := comg1 * comg2 + somg1 * somg2
  let eta := atan2 (somg12 * clam120 - comg12 * slam120) (comg12 * clam120 + somg12 * slam120)
  let k2 := calp0 ^ 2 * g.ep2
  let eps := epsOf k2
  let C3a := g.C3f eps
  let B312 := sinCosSeries true ssig2 csig2 C3a 5 - sinCosSeries true ssig1 csig1 C3a 5
  let A3 := g.A3f eps
  let domg12 := -g.f * A3 * salp0 * (sig12 + B312)
  let lam12 := eta + domg12
  let dlam12 :=
    if diffp then
      if feq calp2 0.0 then -2.0 * g.f1 * dn1 / sbet1
      else (g.lengthsReduced eps sig12 ssig1 csig1 dn1 ssig2 csig2 dn2).1 * (g.f1 / (calp2 * cbet2))
    else 0.0
  ⟨lam12, salp2, calp2, sig12, ssig1, csig1, ssig2, csig2, eps, dlam12⟩

/-- variables of the Newton/bisection loop -/
structure NewtonSt (F : Type) where
  salp1 : F
  calp1 : F
  salp1a : F
  calp1a : F
  salp1b : F
  calp1b : F
  tripb : Bool

/-- 676-710: the body of `for numit in range(_maxit2)`; `fuel` iterations left, `numit = 31 - fuel`.
Returns the final `(salp1, calp1)` and the results of the last `_Lambda12` call. -/
def Geod.newton (g : Geod F) (sbet1 cbet1 dn1 sbet2 cbet2 dn2 slam12 clam12 : F) :
    Nat → NewtonSt F → Option (Lam12 F) → (F × F) × Option (Lam12 F)
  | 0, st, last => ((st.salp1, st.calp1), last)
  | fuel + 1, st, _ =>
    let numit := 31 - (fuel + 1)
    let r := g.lambda12 sbet1 cbet1 dn1 sbet2 cbet2 dn2 st.salp1 st.calp1 slam12 clam12 (decide (numit < 20))
    if st.tripb = true ∨ ¬ ((if numit < 20 then 8.0 else 1.0) * kTol0 ≤ abs r.v) then ((st.salp1, st.calp1), some r)
    else
      let st :=
        if 0.0 < r.v ∧ (numit < 20 ∨ st.calp1b / st.salp1b < st.calp1 / st.salp1) then
          { st with salp1b := st.salp1, calp1b := st.calp1 }
        else if r.v < 0.0 ∧ (numit < 20 ∨ st.calp1 / st.salp1 < st.calp1a / st.salp1a) then
          { st with salp1a := st.salp1, calp1a := st.calp1 }
        else st
      let dalp1 := -r.v / r.dlam12
      let nsalp1 := st.salp1 * cos dalp1 + st.calp1 * sin dalp1
      if (numit < 20 ∧ ¬ (feq r.dlam12 0.0 = true)) ∧ 0.0 < nsalp1 then
        let calp1 := st.calp1 * cos dalp1 - st.salp1 * sin dalp1
        let (salp1, calp1) := norm2 nsalp1 calp1
        g.newton sbet1 cbet1 dn1 sbet2 cbet2 dn2 slam12 clam12 fuel
          { st with salp1 := salp1, calp1 := calp1, tripb := decide (abs r.v ≤ 16.0 * kTol0) } (some r)
      else
        let (salp1, calp1) := norm2 ((st.salp1a + st.salp1b) / 2.0) ((st.calp1a + st.calp1b) / 2.0)
        if abs (st.salp1a - st.salp1b) < kTol0 ∧ abs (st.calp1a - st.calp1b) < kTol0 then ((salp1, calp1), some r)
        else
          g.newton sbet1 cbet1 dn1 sbet2 cbet2 dn2 slam12 clam12 fuel
            { st with salp1 := salp1, calp1 := calp1, tripb := false } (some r)

/-- reduced latitude as (sine, cosine): lines 591-594, 596-599, 737-740 -/
def Geod.reduced (g : Geod F) (lat : F) : F × F :=
  let (sbet, cbet) := sincosd lat
  let (sbet, cbet) := norm2 (g.f1 * sbet) cbet
  (sbet, pyMax kTiny cbet)

/-- 601-722 of `_Inverse`, after the reduction to `lon12 ≥ 0`, `lat1 ≤ 0`, `lat1 ≤ lat2 ≤ -lat1`: `(s12x, salp1, calp1, salp2, calp2)` -/
def Geod.inverseCanonical (g : Geod F) (lat1 lat2 lon12 lon12s slam12 clam12 : F) : F × F × F × F × F :=
  let lam12 := radians lon12
  let (sbet1, cbet1) := g.reduced lat1
  let (sbet2, cbet2) := g.reduced lat2
  let sbet2 := if cbet1 < -sbet1 ∧ feq cbet2 cbet1 = true then (if sbet2 < 0.0 then sbet1 else -sbet1) else sbet2
  let dn1 := sqrt (1.0 + g.ep2 * sbet1 ^ 2)
  let dn2 := sqrt (1.0 + g.ep2 * sbet2 ^ 2)
  let meridian := feq lat1 (-90.0) || feq slam12 0.0
  -- 616-643
  let calp1 := clam12
  let salp1 := slam12
  let calp2 : F := 1.0
  let salp2 : F := 0.0
  let ssig1 := sbet1
  let csig1 := calp1 * cbet1
  let ssig2 := sbet2
  let csig2 := calp2 * cbet2
  let sig12 := atan2 (pyMax 0.0 (csig1 * ssig2 - ssig1 * csig2)) (csig1 * csig2 + ssig1 * ssig2)
  let (s12x, m12x) := g.lengthsOut g.n sig12 ssig1 csig1 dn1 ssig2 csig2 dn2
  if meridian = true ∧ (sig12 < 1.0 ∨ 0.0 ≤ m12x) then (s12x * g.b, salp1, calp1, salp2, calp2)
  -- 645-656
  else if feq sbet1 0.0 = true ∧ (g.f ≤ 0.0 ∨ g.f * 180.0 ≤ lon12s) then (g.a * lam12, 1.0, 0.0, 1.0, 0.0)
  else
    -- 658-722 (the branch `sig12 >= 0`, 663-668, is dead: `_InverseStart` always returns -1)
    let (salp1, calp1) := g.inverseStart sbet1 cbet1 dn1 sbet2 cbet2 dn2 lam12 slam12 clam12
    let r := g.newton sbet1 cbet1 dn1 sbet2 cbet2 dn2 slam12 clam12 31 ⟨salp1, calp1, kTiny, 1.0, kTiny, -1.0, false⟩ none
    match r.2 with
    | none => (0.0, r.1.1, r.1.2, 0.0, 1.0)   -- not reached: the loop runs at least once
    | some l =>
      let s12x := (g.lengthsOut l.eps l.sig12 l.ssig1 l.csig1 dn1 l.ssig2 l.csig2 dn2).1
      (s12x * g.b, r.1.1, r.1.2, l.salp2, l.calp2)

/-- 568-733 `_Inverse`: `(s12, azi1, azi2)` -/
def Geod.inverse (g : Geod F) (lat1 lon1 lat2 lon2 : F) : F × F × F :=
  let (lon12, lon12s) := angDiff lon1 lon2
  let lonsign : F := if 0.0 ≤ lon12 then 1.0 else -1.0
  let lon12 := lonsign * angRound lon12
  let lon12s := angRound ((180.0 - lon12) - lonsign * lon12s)
  let (slam12, clam12) :=
    if 90.0 < lon12 then
      let sc := sincosd lon12s
      (sc.1, -sc.2)
    else sincosd lon12
  let lat1 := angRound (angNormalize lat1)
  let lat2 := angRound lat2
  let swapp : F := if abs lat1 < abs lat2 then -1.0 else 1.0
  let (lonsign, lat1, lat2) := if swapp < 0.0 then (lonsign * (-1.0), lat2, lat1) else (lonsign, lat1, lat2)
  let latsign : F := if lat1 < 0.0 then 1.0 else -1.0
  let lat1 := lat1 * latsign
  let lat2 := lat2 * latsign
  let (s12x, salp1, calp1, salp2, calp2) := g.inverseCanonical lat1 lat2 lon12 lon12s slam12 clam12
  let (salp1, calp1, salp2, calp2) := if swapp < 0.0 then (salp2, calp2, salp1, calp1) else (salp1, calp1, salp2, calp2)
  let salp1 := salp1 * (swapp * lonsign)
  let calp1 := calp1 * (swapp * latsign)
  let salp2 := salp2 * (swapp * lonsign)
  let calp2 := calp2 * (swapp * latsign)
  (s12x, atan2d salp1 calp1, atan2d salp2 calp2)

/-- 758-790 of `_Direct`: the arc length `sig12` on the auxiliary sphere -/
def Geod.directArc (g : Geod F) (k2 eps ssig1 csig1 s12 : F) : F :=
  let A1 := A1m1f eps
  let C1a := C1f eps
  let C1pa := C1pf eps
  let A1p1 := 1.0 + A1
  let B11 := sinCosSeries true ssig1 csig1 C1a 6
  let s_B11 := sin B11
  let c_B11 := cos B11
  let stau1 := ssig1 * c_B11 + csig1 * s_B11
  let ctau1 := csig1 * c_B11 - ssig1 * s_B11
  let tau12 := s12 / (g.b * A1p1)
  let s_tau12 := sin tau12
  let c_tau12 := cos tau12
  let stau2 := stau1 * c_tau12 + ctau1 * s_tau12
  let ctau2 := ctau1 * c_tau12 - stau1 * s_tau12
  let B12 := -sinCosSeries true stau2 ctau2 C1pa 6
  let sig12 := tau12 - (B12 - B11)
  if 0.01 < abs g.f then
    let ssig2 := ssig1 * cos sig12 + csig1 * sin sig12
    let csig2 := csig1 * cos sig12 - ssig1 * sin sig12
    let B12 := sinCosSeries true ssig2 csig2 C1a 6
    let serr := (1.0 + A1) * (sig12 + (B12 - B11)) - s12 / g.b
    sig12 - serr / sqrt (1.0 + k2 * ssig2 ^ 2)
  else sig12

/-- 792-825 of `_Direct`: `(lat2, lon2, azi2)` from the arc length (`dn2`, line 794, is never used) -/
def Geod.directEnd (g : Geod F) (lon1 salp0 calp0 ssig1 csig1 somg1 comg1 eps sig12 : F) : F × F × F :=
  let ssig12 := sin sig12
  let csig12 := cos sig12
  let ssig2 := ssig1 * csig12 + csig1 * ssig12
  let csig2 := csig1 * csig12 - ssig1 * ssig12
  let sbet2 := calp0 * ssig2
  let cbet2 := hypot salp0 (calp0 * csig2)
  let (cbet2, csig2) := if feq cbet2 0.0 then (kTiny, kTiny) else (cbet2, csig2)
  let salp2 := salp0
  let calp2 := calp0 * csig2
  let somg2 := salp0 * ssig2
  let comg2 := csig2
  let C3a := g.C3f eps
  let A3c := g.A3f eps
  let B31 := sinCosSeries true ssig1 csig1 C3a 5
  let B32 := sinCosSeries true ssig2 csig2 C3a 5
  let E := copysign 1.0 salp0
  let omg12 := E * (sig12 - (atan2 ssig2 csig2 - atan2 ssig1 csig1)
    + (atan2 (E * somg2) comg2 - atan2 (E * somg1) comg1))
  let lam12 := omg12 - g.f * A3c * salp0 * (sig12 + (B32 - B31))
  let lon12 := degrees lam12
  let lat2 := atan2d sbet2 (g.f1 * cbet2)
  let lon2 := angNormalize (lon1 + lon12)
  let azi2 := atan2d salp2 calp2
  (lat2, lon2, azi2)

/-- 735-825 `_Direct`: `(lat2, lon2, azi2)` (`dn1`, line 742, is never used) -/
def Geod.direct (g : Geod F) (lat1 lon1 azi1 s12 : F) : F × F × F :=
  let (salp1, calp1) := sincosd (angNormalize azi1)
  let (sbet1, cbet1) := g.reduced (angRound lat1)
  let salp0 := salp1 * cbet1
  let calp0 := hypot calp1 (salp1 * sbet1)
  let somg1 := salp0 * sbet1
  let comg1 := calp1 * cbet1
  let (ssig1, csig1) :=
    if ¬ (feq sbet1 0.0 = true) ∨ ¬ (feq comg1 0.0 = true) then norm2 sbet1 comg1 else (0.0, 1.0)
  let k2 := calp0 ^ 2 * g.ep2
  let eps := epsOf k2
  let sig12 := g.directArc k2 eps ssig1 csig1 s12
  g.directEnd lon1 salp0 calp0 ssig1 csig1 somg1 comg1 eps sig12

/-- `if not deg: x = math.degrees(x)` -/
def toDeg (deg : Bool) (x : F) : F := if deg then x else degrees x
/-- `if not deg: x = math.radians(x)` -/
def fromDeg (deg : Bool) (x : F) : F := if deg then x else radians x

/-- 838-879 `geodesic_inverse` (`_get_geodesic`, 831-832, and the cache behind it: `Model/EllipsoidCache.lean`) -/
def geodesic_inverse (lat1 lon1 lat2 lon2 : F) (ell : Option (Ellipsoid F) := none) (deg : Bool := true) : F × F × F :=
  let g := Geod.make (resolveEllipsoid ell)
  let (dist, azi1, azi2) := g.inverse (toDeg deg lat1) (toDeg deg lon1) (toDeg deg lat2) (toDeg deg lon2)
  (dist, fromDeg deg azi1, fromDeg deg azi2)

/-- 882-923 `geodesic_direct` -/
def geodesic_direct (lat1 lon1 azi1 dist : F) (ell : Option (Ellipsoid F) := none) (deg : Bool := true) : F × F × F :=
  let g := Geod.make (resolveEllipsoid ell)
  let (lat2, lon2, azi2) := g.direct (toDeg deg lat1) (toDeg deg lon1) (toDeg deg azi1) dist
  (fromDeg deg lat2, fromDeg deg lon2, fromDeg deg azi2)

/-- 926-961 `geodesic_line`: the list of `(lat, lon)` (the code returns the two coordinate lists) -/
def geodesic_line (lat1 lon1 lat2 lon2 : F) (ell : Option (Ellipsoid F) := none) (npts : Int := 100) (deg : Bool := true) :
    List (F × F) :=
  let (dist, azi, _) := geodesic_inverse lat1 lon1 lat2 lon2 ell deg
  (List.range npts.toNat).map fun (i : Nat) =>
    let frac := if 1 < npts then ofInt i / ofInt (npts - 1) else 0.0
    let r := geodesic_direct lat1 lon1 azi (dist * frac) ell deg
    (r.1, r.2.1)

/-- loop variables of `geodesic_area` -/
structure AreaSt (F : Type) where
  perimeter : F
  area_sum : F
  azi2_prev : F
  azi1_first : F

/-- 1008-1019: one execution of the loop body for edge `i` with `(dist, azi1, azi2)` -/
def areaStep (st : AreaSt F) (i : Nat) (e : F × F × F) : AreaSt F :=
  if i = 0 then ⟨st.perimeter + e.1, st.area_sum, e.2.2, e.2.1⟩
  else ⟨st.perimeter + e.1, st.area_sum + (angDiff st.azi2_prev e.2.1).1, e.2.2, st.azi1_first⟩

/-- 964-1028 `geodesic_area` on the vertex list: `(area, perimeter)`.  `lats` and `lons` of equal length; the initial `None`s
of `azi2_prev`, `azi1_first` are overwritten in the first round and are `0.0` here. -/
def geodesic_area (pts : List (F × F)) (ell : Option (Ellipsoid F) := none) (deg : Bool := true) : Except PyErr (F × F) :=
  let n := pts.length
  if n < 3 then .error (.valueError "Polygon must have at least 3 vertices")
  else
    let g := Geod.make (resolveEllipsoid ell)
    let v (i : Nat) : F × F := pts.getD i (0.0, 0.0)
    let st := (List.range n).foldl (fun st i =>
      let j := (i + 1) % n
      areaStep st i (geodesic_inverse (v i).1 (v i).2 (v j).1 (v j).2 ell deg)) ⟨0.0, 0.0, 0.0, 0.0⟩
    let area_sum := st.area_sum + (angDiff st.azi2_prev st.azi1_first).1
    let area := g.c2 * radians area_sum
    let area0 := 4.0 * pi * g.c2
    let area := if area0 / 2.0 < abs area then area - copysign area0 area else area
    .ok (area, st.perimeter)

end Pymap3d
