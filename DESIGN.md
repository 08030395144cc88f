# Formal model of pymap3d in Lean 4: design

## 1. What is modelled and how

`/repo/src/pymap3d` is numerical Python.  Each Python function is transcribed **once**, as a Lean function that is
polymorphic over an abstract number type `F` (`lean/Verif/Py/Basic.lean`, class `PyMath`, which lists the arithmetic and
`math`/`numpy` functions the code uses).  Control flow, order of operations, literals, argument order, default-argument
resolution, exceptions and branch conditions follow the Python text; each definition cites file and lines.

The number type is then instantiated:

| instance | file | purpose |
|---|---|---|
| `ℝ` | `Verif/Py/Real.lean` | all mathematical theorems (geometry, inverses, ranges, derivatives ...) |
| arbitrary `F` | - | *structural* theorems (axis relabelling, argument forwarding, default ellipsoid ...) hold for any arithmetic, in particular bit-for-bit for IEEE doubles |
| `Float` | `Verif/Py/FloatInst.lean` | executable sanity checks (`Verif/Eval.lean`) of the transcription against the expected values in the repo's own tests.  These are *tests*, they are not part of any proof. |

Directory layout of `lean/Verif`:

* `Py/` the Python arithmetic layer and its instances;
* `Model/` one file per Python module;
* `Spec/` the small independent specification (ellipsoid surface, unit normal, Euclidean distance, angle ... ), which does not import the model;
* `Lemmas/` proof support;
* `Props/` the property theorems, one file per group, with non-vacuity examples beside them.

## 2. Trusted base

* Lean 4.33.0 kernel and the axioms `propext`, `Classical.choice`, `Quot.sound` (Mathlib's standard three; no theorem depends on anything else).
* Mathlib definitions of `Real`, `sin`, `Complex.arg`, `arctan`, ...
* The reading of the Python text into `Model/` (the tie to the code; by inspection and by the `Float` tests in `Eval.lean`).
* The `ℝ` interpretation of `math` functions: `atan2 y x = Complex.arg (x + i y)`; Python `%` on floats is `x - y*floor(x/y)`;
  `hypot = sqrt(x^2+y^2)`; `degrees/radians` multiply by `180/pi`, `pi/180`.

* Parameters of the model that stand for the Python run time (never given special properties beyond those stated in a theorem's
  hypotheses): `datetime` objects are an instant plus a UTC offset (`Model/DateTime`); `float(str)`, `str.strip`, `datetime.fromisoformat`
  in the command line model (`Platform`); the namespace produced by `argparse`; the interleaving of threads at the granularity of dictionary
  operations (`EllipsoidCache`).
* Tables generated by scripts from the text of `/repo`: `Model/CliTable.lean` (signatures, by `tools/cli_table.py`),
  `Props/Defaults.lean` (`tools/defaults.py`), `Props/Units.lean` (`tools/units.py`).  Statement skeletons for the in-place assignment
  analysis (`Model/HeapSkel.lean`) are transcribed by hand.

`Verif/Eval.lean` runs the model with IEEE doubles on 151 calls taken from the repository's tests and compares with the expected values
(`cd lean && lake env lean --run Verif/Eval.lean` prints `151 cases, 0 mismatches`).  It is a test of the transcription, no theorem uses it.

* For C76 ff.: the arithmetic of `Py/FloatArith.lean`: `+ - * /`, `sqrt`, literals and `math.pi` are the exact value with one rounding of
  relative error at most `u`; `sin, cos, atan2, hypot, pow, radians, ...` are within 4 units in the last place (the accuracy the C library
  documents is better).  `binary64` (53 bits, round to nearest, unbounded exponent) is shown to be an instance with `u = 2^-53`.

Not modelled: floating-point rounding (except in C76 ff.; all other theorems are about the exact values or hold in every arithmetic), overflow, NaN propagation (except in C84 and where stated) and signed zero; astropy itself (the code that calls it is modelled, C89, with astropy as a parameter; the other theorems are about the path without it);
dtype effects (`float32`); `datetime` parsing (`fromisoformat`); argparse itself;
logging/warnings output; performance.

## 3. Plan per property

Notation: M = model over `ℝ` of the named functions; each property is proved as universally quantified theorems.

* **C01** geodetic2ecef places the point on the ellipsoid normal. M geodetic2ecef. Spec: ellipsoid surface, gradient-parallel unit normal, distance. Proof: algebra; distance minimality for alt>=0 by convexity (supporting plane).
* **C02** ecef2geodetic inverts geodetic2ecef exactly on the surface. M ecef2geodetic (scalar and numpy branch), geodetic2ecef. Proof: on the surface u=b, huE=a, correction term 0, so beta is the parametric latitude.
* **C03** ecef2geodetic is exact for spherical bodies. As C02 with E=0: u=r, correction 0.
* **C04** ecef2geodetic is exact on the polar axis and in the equatorial plane. Branch analysis of the scalar and numpy code; u=0/hxy=0 exceptional branch.
* **C05** ecef2geodetic output contract. Ranges of atan/atan2; altitude is distance to (a cos B, b sin B) which is a surface point.
* **C06** geodetic -> ECEF -> geodetic round trip at arbitrary altitude. Longitude and symmetries exact; error bound for latitude is attempted by an explicit estimate; otherwise `_partial`.
* **C07** ENU <-> ECEF vector rotation is an isometry with exact inverse. Linear algebra with sin^2+cos^2=1.
* **C08** Local-frame point conversions are inverse, distance preserving, observer at origin. Composition of C07 with translation.
* **C09** NED, NWU and SEZ are relabelled ENU, bit-for-bit. Definitional equalities for arbitrary F.
* **C10** Published rotation matrices agree with the functions. 3x3 matrices as functions; ring + sin^2+cos^2.
* **C11** Body frame conversions. Orthogonality of products of rotations; string dispatch by cases.
* **C12** ENU <-> AER. arg/atan2 lemmas; trimming function.
* **C13** AER <-> ECEF/geodetic. C07+C12.
* **C14** DCA (downrange, crossrange, above) frame. 2D rotation.
* **C15** Ellipsoid derived parameters. Field algebra over the constructor (returns Except).
* **C16** Every named model is a valid ellipsoid. Lookup in the literal association list; all entries checked by kernel computation on rationals / norm_num.
* **C17** Ellipsoid/geodesic cache histories. State machine: heap of ellipsoid objects + name cache; invariant by induction over operation lists.
* **C18** Geodesic solver cache never returns a solver for another ellipsoid. Same state machine with the geodesic dictionary; invariant: entry at key k was built from k.
* **C19** Radii of curvature. Derivatives of the meridian parametrisation; inequalities.
* **C20** geocentric_radius is the distance of the surface point from the centre. Algebra.
* **C21** Auxiliary spheres. Area: integral of 2 pi p(lat) M(lat) by the fundamental theorem of calculus; inequalities by AM-GM/convexity.
* **C22** Parametric (reduced) latitude. arctan/tan monotonicity.
* **C23** Geocentric latitude. Algebra; counterexample by explicit evaluation.
* **C24** Isometric latitude. HasDerivAt; monotone from positive derivative.
* **C25** Conformal latitude is the Gudermannian of the isometric latitude. exp(arsinh), artanh, rpow identities.
* **C26** Series latitudes (rectifying, authalic, conformal inverse). Fourier sine polynomials: oddness, fixed points; derivative lower bound from coefficient sum < 1.
* **C27** Series latitude round trips are accurate. Mean value bound on composite series.
* **C28** geodetic2spherical gives spherical coordinates of the ECEF point. Algebra.
* **C29** spherical2geodetic is the exact inverse of geodetic2spherical. Show k is the positive root of Vermeille's quartic, hence the foot point; flagship.
* **C30** Angular separation is the angle between directions. Relate to InnerProductGeometry.angle.
* **C31** n-vector conversions. arcsin/arg.
* **C32** nvector_distance is a metric on the sphere. Angle metric.
* **C33** nvector_interpolate moves uniformly along the great circle. Slerp identities.
* **C34** nvector mean, cross-track and intersection. Cross product algebra; permutation invariance by list induction.
* **C35** lookAtSpheroid finds the first intersection. Quadratic along the ray; smaller root characterisation.
* **C36** lookAtSpheroid ignores ell for the observer position. Explicit witness + exact characterisation.
* **C37** Meridian arc. Absolute value algebra + monotonicity from C26.
* **C38** Departure. Int.floor/fract algebra.
* **C39** Loxodrome. Special directions; sphere case.
* **C40** vdist always terminates and meets its contract. Loop as fuelled iteration with the code's own cap; contract.
* **C41** vreckon terminates and meets its contract. Contraction of the sigma iteration => loop exits; well-founded.
* **C42** track2 contract. Case analysis.
* **C43** Karney arithmetic helpers. Induction for Clenshaw/Horner; floor algebra for normalisation.
* **C44** geodesic_direct contract. Algebra of the direct solution; sphere collapses all series.
* **C45** geodesic_line contract. List induction.
* **C46** geodesic_area. Evaluation of the model on the octant polygon; error cases.
* **C47** Julian date. Integer floor arithmetic vs independent day count; induction on calendar successor.
* **C48** Leap seconds and TT. Table scan, monotonicity by sortedness.
* **C49** Sidereal time. mod algebra; nested list recursion.
* **C50** ECI <-> ECEF rotation. Orthogonality of products.
* **C51** ECI <-> ECEF state transforms. Linear algebra; for the velocity, bounds of the first three derivatives that are closed under products (`Lemmas/Jet.lean`) applied to the ten rotations, then the error of a central difference (`Props/EciRate.lean`).
* **C52** Earth-orientation parameters in composite ECI functions. Definitional + witness.
* **C53** azel <-> radec. Spherical trigonometry.
* **C54** Time input normalisation. datetime = instant + offset model.
* **C55** CLI argument coercion and dispatch. String model of coercion; list of registered commands.
* **C56** Input arrays are not modified, except where they are. Heap model of arrays.
* **C57** Degree and radian modes agree. Definitional.
* **C58** Default ellipsoid is WGS84. Definitional.
* **C59** Polar/spherical utilities. arg lemmas.
* **C60** ECI array conversions act elementwise. List model of arrays.
* **C61** Geodesic solver cache under threads. Interleaving semantics: a schedule is a list of thread steps; invariant by induction over schedules; race witness as an explicit schedule.
* **C62** geodesic_inverse contract. M `_Inverse` with its Newton loop as a fuelled recursion with the code's cap; symmetries by transport through the canonicalisation; sphere: spherical trigonometry.
* **C63** Omitted optional arguments. Statements generated from the Python signatures, true by unfolding for every number type.
* **C64** geodetic <-> local frame round trips. C08-C14 composed with the accuracy of ecef2geodetic (C06).
* **C65** meanm. Vector sum of unit vectors; permutations by list induction.
* **C66** geoc2geod. Long expansion of the geodetic minus geocentric latitude with explicit remainder (`Lemmas/LongSeries`).
* **C67** geodesic_direct follows the true geodesic. Spec/Geodesic defines geodesics (unit speed, acceleration normal to the surface). Existence by construction through the auxiliary sphere, uniqueness by Picard-Lindelof (`Lemmas/GeodesicCurve`, `GeodesicUnique`). Karney's tables are compared with the exact integrands by exact polynomial identities with explicit remainders (`Lemmas/KarneyRev`, `KarneyLen`, generated by `tools/series`).
* **C68** euler. Normal curvature of a geodesic from its differential equation.
* **C69** vreckon/track2 follow the geodesic. Derivatives of Vincenty's series against the integrands of the geodesic (polynomial certificates generated by tools/series/vincenty_true.py), mean value inequality, `direct_error`.
* **C70** vdist solves the inverse problem. The spherical triangle of the last iterate gives azimuth and arc; `vstate_true` compares vdist's distance and longitude with the integrals of the geodesic, `vIter_converges` shows that the fixed-point iteration contracts (factor 0.4 for f <= 1/150, arc <= 3.024), `direct_error`-type estimates turn the residuals into a distance.
* **C71** Earth rotation against the published theory. `Spec/EarthRotation.lean` gives precession, nutation, sidereal time and IERS polar motion as turns of axes; `eciMatrix_apply` shows that the matrix of the code composes exactly these turns (angles reduced modulo a turn), except that polar motion is inverted; the witness for the defect is the direction of the celestial pole.
* **C72** Built-in ellipsoids against published figures. `Spec/Bodies.lean` lists equatorial radius and inverse flattening (Earth) or IAU radii (other bodies); the table of the model is compared entry by entry, and `models_names` says which strings are accepted.
* **C73** geodesic_inverse solves the inverse problem. `KarneyNewton`..`KarneyNewton10`: the function `_Lambda12` evaluates is the longitude reached on the auxiliary sphere minus the turn, up to terms of order n^7; its derivative as computed from the reduced length is close to the true one, so each Newton step multiplies the error by a small factor and lands inside the bracket; `_InverseStart` gives a start inside the region where this holds; the loop therefore ends with the convergence test met. The residual is turned into a distance between curves by `direct_error_on` (C67). Symmetries of the canonical form as in C62.
* **C74** the returned distance is the shortest distance. `Spec/Shortest.lean` defines a journey (a curve on the surface of at most unit speed; no differentiability) and the distance along the surface as an infimum. `Lemmas/Shortest1`..`Shortest9`: for the fixed start the length of the great-circle image to a point of the auxiliary sphere is the envelope of the action minus the Clairaut constant times the turn; its gradient has norm one in the metric of the ellipsoid, so it grows along any curve no faster than the length (a calibration, done with one-sided estimates along chords, since journeys need not be differentiable). `Props/Shortest`..`Shortest4` link this with the geodesics of `Spec/Geodesic` and with C70 and C73.
* **C75** distances behave like distances: `Props/Shortest5`, from C74 and joining, reversing and closing journeys.
* **C76** `geodetic2ecef` with rounded arithmetic: the polymorphic model run in `Fl M` (`Py/FloatArith.lean`), where `M` is any arithmetic with relative rounding error `u`; calculus of `k` roundings (`Near`, `Err` in `Lemmas/FloatErr.lean`); `Props/FloatEcef.lean`.
* **C77** the local frames with rounded arithmetic: `Props/FloatFrames.lean`, `Props/FloatAer.lean`.
* **C78** `ecef2geodetic` and the round trip with rounded arithmetic: absolute error analysis of the closed formula line by line (`Lemmas/FloatGeo*.lean`), assembled in `Props/FloatGeodetic*.lean`. In `Fl M` the square root of a negative number is 0 (Python would raise); for `a**2 - b**2` that needs axes that differ by a rounding only.
* **C79** loxodromes as rhumb lines: `Spec/Rhumb.lean` defines a rhumb line by its velocity; existence from the inverse of the meridian length and the isometric latitude, uniqueness from conservation of the angle between meridian planes (`Props/Rhumb*.lean`); the distance of near-parallel courses by a mean value argument.
* **C80** array calls: `Py/Arr.lean` makes arrays over any index type an instance of the arithmetic, so the polymorphic transcription of code without value branches *is* the array code (`Props/ArrayElem.lean`, generated); code with masks, in-place assignment and `any()` is transcribed at array level (`Model/ArrayCode.lean`) and proved equal to the elementwise model at every index (`Props/ArrayCode.lean`).
* **C81** mixtures of numbers and arrays: `Py/Kind.lean` (kinds and shapes with broadcasting) is another instance of the arithmetic, so the polymorphic transcription computes result shapes; broadcasting is proved a semilattice (`Lemmas/KindLemmas.lean`), which reduces every function to the join of its arguments; the mask code is transcribed in `Model/Mixed.lean`.
* **C82** reckoning: the geodesic of C67/C69 is shortest up to 148° (C74), so the surface distance of two points near it is the arc between them (journeys are glued from arcs and short hops).
* **C83** meridian arcs are shortest: along any journey the meridian length up to the current latitude grows at most at unit rate (chord against arc to second order, then subdivision), for every oblate ellipsoid and all latitudes; with C27 and C74 this compares `meridian_arc`, `vdist` and `geodesic_inverse`.
* **C84** NaN operands: the polymorphic transcriptions are instantiated at `Nan F` (`Py/Nan.lean`), any arithmetic with an absorbing NaN on which all comparisons are false. Which results are NaN is computed by rewriting (`isNan` of each operation), generated for the 70 straight-line functions by `tools/nan.py`; branches, range checks and loops by hand (`Props/Nan.lean`, `Nan2.lean`).
* **C85** values of broadcast operands: `Py/ND.lean` pairs a kind with the elements at all multi-indices and is a further instance of the arithmetic; reading a result at a multi-index commutes with every operation because restriction of indices to a shape is compatible with the join of shapes (`restrict_join_left`), so the theorems for straight-line functions are generated by rewriting (`tools/broadcast.py`); masks, `empty_like`, `squeeze` and the fallback with `float()` are transcribed in `Model/MixedVal.lean` and proved equal, position by position, to the scalar transcription.
* **C86** time in double precision: the arithmetic of C76 with three further facts about binary64 (`Lemmas/Double.lean`: roundoff at most 2^-53, quarters below 2^51 are exact, rounding is monotone; all three proved for `binary64`). The truncations of `juliandate` are shown to be unaffected by rounding, so the date is one rounding of an exact sum (`Props/FloatTime.lean`); sidereal time by a calculus of absolute errors in units of 2^-53 (`Lemmas/Close.lean`), compared with the formulas of `Spec/EarthRotation.lean` (`Props/FloatSidereal.lean`).
* **C87** the ECI rotation in double precision: an operator-norm calculus for computed 3x3 matrices (`Lemmas/FloatMat.lean`: `OpNear c A' A` bounds the distance of the images of every vector under the computed and the exact matrix; rules for products, transposes and application), applied to the nine factors of the matrix (`Props/FloatEci.lean`). The round trip compares with the exact rotation by the *computed* angles, so it needs nothing about the time.
* **C88** body frames in double precision: the matrix calculus of C87 applied to the attitude and local matrices (`Props/FloatBody.lean`); positions through the bounds of C77.
* **C89** astropy: the functions that use it, with astropy as a parameter (`Model/Astropy.lean`: the calls made, with their arguments and units); proved by cases on installed/refused (`Props/Astropy.lean`).
* **C90** states in doubles: the rate matrix is the rounded difference of two matrices each within 3.22e7 units of 2⁻⁵³ of the exact rotation (C87); the exact central difference is compared with the derivative by the jets of C51; errors are added in Euclidean norm (`Props/FloatState.lean`).
* **C91** anglesep in doubles: forward error of the squared half sine (252 units), inverted with Jordan's inequality; the loss of small separations is a theorem about binary64 (`Props/FloatSep.lean`).
* **C92** radii in floats: roundings are counted (`Near`, `Err`) through the stored eccentricity and flattening (`SameShape`, proved for the constructor and for the default) and through `1 - (e sin)²` (`Props/FloatRadii.lean`); fractional powers by monotonicity of `rpow` and, for the rounded exponent, the size of the logarithm (`Props/FloatRadii2.lean`).
* **C93** spherical coordinates at the poles: exact evaluation of the binary64 operations (sine rounds to 1, its square too, the cosine to 0; rounding is idempotent) compared with the exact formula (`Props/FloatPole.lean`).
* **C94** geocentric latitude in floats: the factor `1 - e² N/(N+h)` by relative errors, the angle by the Lipschitz constant of `φ ↦ arctan (m tan φ)` (mean value inequality), the final arctangent by the relative condition number of `arctan` (`Props/FloatLat.lean`).

## 4. Methods worth knowing before reading the proofs

* *Series accuracy* (C27, C37, C66, C67): `Spec/Meridian`, `Spec/Area` define the true quantity as an integral or derivative; the truncated
  series of the code is differentiated and compared with it through a polynomial identity (computed by `tools/series`, checked by `ring`)
  whose remainder is bounded by interval-style lemmas (`Lemmas/Bd`) or Taylor models (`Lemmas/TM`).
* *ecef2geodetic away from its exact cases* (C06): the closed form of the code is compared with the true foot point through a contraction
  estimate (`Lemmas/YouBound`); the bound is a function `latErr` of the ellipsoid and of the altitude.
* *Loops* (vdist, vreckon, `_Inverse`, leap-second scan): a fuelled recursion with the cap that the code itself has, or, where the code has
  no cap (vreckon), termination is a theorem (contraction).  `Option` in a result type is "the loop does not end"; theorems show `some`.
* *Arrays*: lists; functions whose behaviour on arrays differs from elementwise (vdist, ECI states, in-place trimming) have separate array
  models, and the differences are theorems (C40, C56, C60).
* *Division by zero, domain errors*: over `ℝ` Lean gives total operations a value.  Theorems therefore carry the conditions under which the
  Python operation is defined, or the model has an explicit exceptional branch (`ecef2geodetic`, `vdist`, n-vectors, `conformal` at poles).
* Mutation testing: `seeded/mutate.py` edits the model in a scratch copy, one definition at a time; `seeded/LOG.jsonl` has the outcome.
