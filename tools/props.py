#!/usr/bin/env python3
"""Regenerates ../properties.jsonl (the property list is maintained here)."""
import json, os
P = []
def p(id, title, statement, quantifier, why, *anchors):
    P.append(dict(id=id, title=title, statement=statement, quantifier=quantifier,
                  why_tests_cant=why, anchors=list(anchors)))
S = "src/pymap3d/"
CONT = "The input space is a continuum; any finite set of sampled coordinates leaves uncountably many untested, and tolerance-based comparison cannot distinguish an exact identity from an approximate one."

p("C01","geodetic2ecef places the point on the ellipsoid normal",
  "geodetic2ecef(lat, lon, alt, ell) returns the foot point of the given latitude/longitude - a point satisfying x^2/a^2+y^2/a^2+z^2/b^2 = 1 at which the outward unit normal of the ellipsoid is (cos lat cos lon, cos lat sin lon, sin lat) - displaced by exactly alt times that unit normal. In particular alt=0 is on the surface, |alt| is the distance to the foot point, and for alt >= 0 it is the distance to the whole ellipsoid.",
  "all latitudes, longitudes, altitudes, every ellipsoid with a >= b > 0, degrees and radians", CONT,
  S+"ecef.py:geodetic2ecef")
p("C02","ecef2geodetic inverts geodetic2ecef exactly on the surface",
  "For every point of the reference surface, ecef2geodetic(geodetic2ecef(lat, lon, 0, ell), ell) = (lat, lon, 0) (lat in (-90,90), lon in (-180,180]); both the pure-Python scalar branch and the numpy branch (outside its documented snapping tolerances).",
  "all |lat|<90, all lon in (-180,180], every ellipsoid a >= b > 0, deg and rad, scalar and numpy branch", CONT,
  S+"ecef.py:ecef2geodetic", S+"ecef.py:geodetic2ecef")
p("C03","ecef2geodetic is exact for spherical bodies",
  "When the two semi-axes are equal, ecef2geodetic inverts geodetic2ecef exactly at every altitude above the centre (alt > -a), on both branches away from snapping tolerances.",
  "all lat, lon, all altitudes > -radius, every radius", CONT, S+"ecef.py:ecef2geodetic")
p("C04","ecef2geodetic is exact on the polar axis and in the equatorial plane",
  "For a point (0,0,z), |z|>0 the result is latitude +-90 and altitude |z|-b; for a point in the equatorial plane outside the focal disc (hypot(x,y) > sqrt(a^2-b^2)) the result is latitude 0, longitude atan2(y,x), altitude hypot(x,y)-a.",
  "all z, all equatorial points, every ellipsoid", "The branch taken depends on exact zero tests; sampled points never explore the whole axis/plane.", S+"ecef.py:ecef2geodetic")
p("C05","ecef2geodetic output contract",
  "For every ECEF point: latitude is in [-90,90], longitude in [-180,180] and satisfies x = hypot(x,y) cos lon, y = hypot(x,y) sin lon; altitude is negative or zero exactly when the point is inside the ellipsoid and >= 0 otherwise; |altitude| is never smaller than the true distance to the ellipsoid (it is the distance to some point of the surface).",
  "all ECEF points, all ellipsoids, both branches", CONT, S+"ecef.py:ecef2geodetic")
p("C06","geodetic -> ECEF -> geodetic round trip at arbitrary altitude",
  "ecef2geodetic(geodetic2ecef(lat,lon,alt)) returns lon exactly and latitude/altitude within an explicit bound that is the error of the one-step You(2000) correction (WGS84, -12 km to 100 km: 3.4e-13 rad and 2.2 micrometres; to 1000 km: 2e-9 rad and 13 mm; any height: 5.8e-6 rad), and geodetic2ecef(ecef2geodetic(x,y,z)) returns within an explicit bound of every point on or outside the ellipsoid. Equivariance under rotation about the polar axis and the odd symmetry in z hold exactly.",
  "all lat, lon, alt, ellipsoids", CONT, S+"ecef.py:ecef2geodetic")
p("C07","ENU <-> ECEF vector rotation is an isometry with exact inverse",
  "enu2uvw and uvw2enu (also ecef2enuv / enu2ecefv) are mutually inverse, preserve dot products and lengths, map the up axis to the ellipsoid normal, the east axis to the horizontal eastward direction and the north axis to the third axis of a right-handed frame.",
  "all vectors, all observer latitudes/longitudes, deg and rad", CONT, S+"ecef.py:enu2uvw", S+"ecef.py:uvw2enu", S+"ecef.py:ecef2enuv", S+"enu.py:enu2ecefv")
p("C08","Local-frame point conversions are inverse, distance preserving, observer at origin",
  "ecef2enu/enu2ecef (and the NED, NWU, SEZ versions) are mutually inverse for the same observer, the distance between any two points is unchanged, the observer's own ECEF position maps to (0,0,0), and geodetic2X equals geodetic2ecef followed by ecef2X.",
  "all points, observers, ellipsoids, deg/rad", CONT, S+"ecef.py:ecef2enu", S+"ecef.py:enu2ecef", S+"ned.py", S+"nwu.py", S+"sez.py", S+"enu.py:geodetic2enu")
p("C09","NED, NWU and SEZ are relabelled ENU, bit-for-bit",
  "Every ned/nwu/sez conversion returns exactly the ENU result with axes permuted and signs changed (N,E,-U), (N,-E,U), (-N,E,U), in any arithmetic (including IEEE floats), and their inverses consume that relabelling.",
  "all inputs, any number type/rounding", "Equality must hold for every float input, including rounding.", S+"ned.py", S+"nwu.py", S+"sez.py")
p("C10","Published rotation matrices agree with the functions",
  "ecef2X_matrix applied to a vector gives the same result as the ecef2X vector function, X2ecef_matrix is its transpose and inverse, has determinant +1 for right-handed frames, for X in ENU, NED, NWU, SEZ.",
  "all lat0, lon0, vectors, deg/rad", CONT, S+"frames.py", S+"enu.py:ecef2enu_matrix")
p("C11","Body frame conversions",
  "X2body and body2X are mutually inverse isometries; the body vector does not depend on which local frame was used to express the input; yaw=pitch=roll=0 gives body = NED; body x axis for given yaw/pitch is (cos p cos y, cos p sin y, -sin p) in NED; an unknown frame or a sequence other than 'zyx' raises ValueError; geodetic2body = ecef2body o geodetic2ecef.",
  "all angles, vectors, frames strings, sequence strings", CONT+" Frame/sequence are arbitrary strings.", S+"body.py", S+"frames.py")
p("C12","ENU <-> AER",
  "enu2aer returns azimuth in [0,360), elevation in [-90,90], range >= 0, range = Euclidean norm of the (1 mm trimmed) vector; aer2enu(enu2aer(v)) = v after trimming components below 1e-3 m to zero; enu2aer(aer2enu(az,el,r)) = (az,el,r) on the open domain when no component is trimmed.",
  "all ENU vectors, all az/el/range, deg/rad", CONT, S+"enu.py:enu2aer", S+"enu.py:aer2enu")
p("C13","AER <-> ECEF/geodetic",
  "aer2ecef places the target at Euclidean distance |srange| from the observer; ecef2aer(aer2ecef(az,el,r)) returns (az,el,r) (no trimmed component); slant range of ecef2aer equals Euclidean distance between target and observer (within the 1 mm trim).",
  "all observers, targets, ellipsoids", CONT, S+"aer.py")
p("C14","DCA (downrange, crossrange, above) frame",
  "enu2dca/dca2enu are mutually inverse isometries for every heading; downrange points along the heading, cross-range 90 degrees to the left of it; ned/ecef/geodetic/aer variants are the corresponding compositions and invert each other.",
  "all vectors and headings", CONT, S+"dca.py")
p("C15","Ellipsoid derived parameters",
  "A constructed Ellipsoid(a,b) with a >= b > 0 has flattening (a-b)/a in [0,1), eccentricity with e^2 = 1-b^2/a^2 in [0,1), third flattening (a-b)/(a+b); b = a(1-f) = a sqrt(1-e^2); n = f/(2-f); construction fails with AssertionError exactly when the effective flattening is negative (a<b, a>0).",
  "all real a, b", CONT, S+"ellipsoid.py:Ellipsoid")
p("C16","Every named model is a valid ellipsoid",
  "from_name(name) succeeds exactly for the names in the models table (KeyError otherwise), returns the tabulated axes, and every tabulated model has a >= b > 0 so all other properties apply to it; 'jupyter' is the same planet as 'jupiter'.",
  "all strings", "The set of names is finite but the failing names are all other strings.", S+"ellipsoid.py:Ellipsoid.from_name", S+"ellipsoid.py:Ellipsoid.models")
p("C17","Ellipsoid/geodesic cache histories",
  "Starting from a fresh process, after ANY sequence of from_name, geodesic look-ups and cache clears that does not mutate ellipsoid objects, from_name(name) returns an object equal to the table entry, repeated calls between clears return the identical object, and default-ellipsoid computations use WGS84. If the user mutates a returned named ellipsoid, subsequent from_name calls (and default wgs84 computations) observe the mutation until clear_ellipsoid_caches is called.",
  "all finite operation histories", "Depends on unbounded operation histories of a mutable singleton cache.", S+"ellipsoid.py:_from_name_cached", S+"ellipsoid.py:clear_ellipsoid_caches")
p("C18","Geodesic solver cache never returns a solver for another ellipsoid",
  "After any history of look-ups, ellipsoid mutations and clears, the solver returned for an ellipsoid is one built from the ellipsoid's CURRENT semi-major axis and flattening, so Karney results are independent of history.",
  "all finite operation histories including mutation of ellipsoids", "Unbounded histories.", S+"ellipsoid.py:get_cached_geodesic", S+"karney.py:_Geodesic.__init__")
p("C19","Radii of curvature",
  "transverse(lat) is the length of the normal from surface to polar axis; parallel(lat) is the distance of the surface point from the polar axis; meridian(lat) is the speed of the meridian curve (derivative of surface position w.r.t. latitude); b^2/a <= meridian <= a^2/b, a <= transverse <= a^2/b, meridian <= transverse, with equality of the two exactly at the poles when a>b.",
  "all latitudes and ellipsoids", CONT, S+"rcurve.py")
p("C20","geocentric_radius is the distance of the surface point from the centre",
  "geocentric_radius(lat, ell) = Euclidean norm of geodetic2ecef(lat, lon, 0, ell) for every lon; lies between b and a.",
  "all lat, lon, ellipsoids", CONT, S+"rcurve.py:geocentric_radius")
p("C21","Auxiliary spheres",
  "authalic radius: 4 pi R^2 equals the surface area of the ellipsoid; triaxial/biaxial/curve means satisfy norm <= mean and lie between b and a (curve between the curvature radii); rectifying radius lies in [b,a]; unknown method raises ValueError; for a sphere all equal the radius.",
  "all ellipsoids, all method strings", CONT, S+"rsphere.py")
p("C22","Parametric (reduced) latitude",
  "geodetic2parametric returns the latitude beta with (a cos beta, b sin beta) = meridian point at the geodetic latitude; parametric2geodetic is its exact inverse on (-90,90); odd, strictly increasing, |beta| <= |lat|.",
  "all |lat|<90, ellipsoids", CONT, S+"latitude.py:geodetic2parametric", S+"latitude.py:parametric2geodetic")
p("C23","Geocentric latitude",
  "geodetic2geocentric(lat, alt) is the geocentric latitude (atan of z over axis distance) of the ECEF point of geodetic2ecef(lat, lon, alt); geocentric2geodetic inverts it exactly at alt = 0, but is NOT the inverse at alt != 0 (it evaluates the prime-vertical radius at the geocentric latitude).",
  "all |lat|<90, alt > -b^2/a, ellipsoids", CONT, S+"latitude.py:geodetic2geocentric", S+"latitude.py:geocentric2geodetic")
p("C24","Isometric latitude",
  "geodetic2isometric is odd, strictly increasing and its derivative is M/(N cos lat) (conformality) wherever |cos lat| > 1e-9; inside the 1e-9 cap it returns +-infinity with the sign of the latitude.",
  "all latitudes, ellipsoids", CONT, S+"latitude.py:geodetic2isometric")
p("C25","Conformal latitude is the Gudermannian of the isometric latitude",
  "geodetic2conformal(lat) = 2 atan(exp(geodetic2isometric(lat))) - 90deg away from the polar cap, is odd, strictly increasing, maps +-90 to +-90, and isometric2geodetic(psi) = conformal2geodetic(gd psi).",
  "all latitudes, ellipsoids", CONT, S+"latitude.py:geodetic2conformal", S+"latitude.py:isometric2geodetic")
p("C26","Series latitudes (rectifying, authalic, conformal inverse)",
  "geodetic2rectifying, rectifying2geodetic, geodetic2authalic, authalic2geodetic, conformal2geodetic are odd, fix 0 and +-90, are the identity on a sphere, satisfy f(180-lat) = 180-f(lat), and are strictly increasing for every flattening up to an explicit bound that covers every tabulated body.",
  "all latitudes; all ellipsoids up to the flattening bound", CONT, S+"latitude.py")
p("C27","Series latitudes are accurate, and their round trips close",
  "For every oblate ellipsoid with e^2 <= 1/2 and n = (a-b)/(a+b): geodetic2rectifying(lat) is the length of the meridian from the equator scaled so that the pole is a right angle, up to a relative error 55 n^5; geodetic2authalic(lat) carries zones of the ellipsoid to zones of the sphere with the same fraction of the hemisphere, up to (0.51 e^8 + 6 e^10)|sin lat|; rectifying2geodetic and geodetic2rectifying undo each other (both orders) up to 415 n^5 (830 n^5) radians; authalic2geodetic and geodetic2authalic undo each other up to 1.5 e^8 (3 e^8) radians; rsphere.rectifying is the radius of the circle as long as the meridian up to n^4/50 + 31 n^5 relative to the mean semi-axis.",
  "all latitudes, all ellipsoids up to the flattening bound (every tabulated body)", CONT, S+"latitude.py:geodetic2rectifying", S+"latitude.py:rectifying2geodetic", S+"latitude.py:geodetic2authalic", S+"latitude.py:authalic2geodetic", S+"rsphere.py:rectifying")
p("C28","geodetic2spherical gives spherical coordinates of the ECEF point",
  "geodetic2spherical(lat, lon, alt) = (spherical latitude, lon, radius) of geodetic2ecef(lat, lon, alt): radius is the norm, radius*sin(slat) = z, radius*cos(slat) = axis distance.",
  "all lat in [-90,90], lon, alt with nonzero radius", CONT, S+"spherical.py:geodetic2spherical")
p("C29","spherical2geodetic is the exact inverse of geodetic2spherical",
  "spherical2geodetic(geodetic2spherical(lat, lon, alt)) = (lat, lon, alt) exactly (closed-form Vermeille solution) for all points outside the evolute neighbourhood used by the algorithm (r_0>0).",
  "all lat, lon, alt above the stated depth, ellipsoids", CONT, S+"spherical.py:spherical2geodetic")
p("C30","Angular separation is the angle between directions",
  "anglesep / anglesep_meeus equal the angle between the two unit vectors; hence symmetric, zero iff same direction, in [0,180], triangle inequality, invariant under longitude shift.",
  "all pairs/triples of directions", CONT, S+"haversine.py")
p("C31","n-vector conversions",
  "geodetic2nvector returns a unit vector equal to the ellipsoid normal; nvector2geodetic inverts it exactly on (-90,90)x(-180,180]; geodetic2nvector(nvector2geodetic(n)) = n for every unit vector; nvector2ecef(geodetic2nvector(lat,lon),alt) = geodetic2ecef(lat,lon,alt).",
  "all lat/lon, all unit vectors", CONT, S+"nvector.py")
p("C32","nvector_distance is a metric on the sphere",
  "nvector_distance = radius * angle; symmetric, zero iff equal, bounded by pi*radius, triangle inequality; agrees with anglesep.",
  "all unit vectors, all radii >= 0", CONT, S+"nvector.py:nvector_distance")
p("C33","nvector_interpolate moves uniformly along the great circle",
  "For non-identical, non-antipodal unit vectors the result is a unit vector in their plane at angle fraction*omega from the first and (1-fraction)*omega from the second, endpoints at fraction 0 and 1.",
  "all unit vectors, all fractions", CONT, S+"nvector.py:nvector_interpolate")
p("C34","nvector mean, cross-track and intersection",
  "Intersection is a unit vector on both great circles and on the centroid's side; cross-track distance is zero exactly on the great circle, antisymmetric under path reversal and bounded by radius*pi/2; nvector_mean is unit length and independent of input order.",
  "all unit vectors / lists of any length", CONT, S+"nvector.py")
p("C35","lookAtSpheroid finds the first intersection",
  "With the default ellipsoid: if it returns a range d then observer + d*line-of-sight lies on the ellipsoid, d >= 0, no smaller non-negative parameter is on or inside the ellipsoid, and returned lat/lon are those of the intersection point; if it returns NaN no point of the ray is on the ellipsoid; negative h0 raises ValueError.",
  "all observers h0>=0, azimuths, tilts", CONT, S+"los.py:lookAtSpheroid")
p("C36","lookAtSpheroid ignores ell for the observer position",
  "For non-default ellipsoids the observer is placed using WGS84, so e.g. a nadir look does not return range h0; characterised exactly (observer ECEF and output geodetic conversion use WGS84 whatever ell is).",
  "all ellipsoids", "A universally quantified independence statement.", S+"los.py:lookAtSpheroid")
p("C37","Meridian arc",
  "meridian_arc is symmetric, non-negative, zero iff equal latitudes (below the flattening bound), additive over intermediate latitudes; meridian_dist(lat) = meridian_arc(0, lat); on a sphere it is R|dlat|; on every ellipsoid with e^2 <= 1/2 it is the true length of the meridian (integral along the ellipse) up to a relative error n^4/40 + 100 n^5 (2e-12 on WGS84).",
  "all latitudes, ellipsoids", CONT, S+"lox.py:meridian_arc")
p("C38","Departure",
  "departure is symmetric in the longitudes, in [0, pi * parallel radius], periodic by 360 deg in each longitude, zero when longitudes agree mod 360, equals the arc length of the shorter way round the parallel.",
  "all longitudes, latitudes, ellipsoids", CONT, S+"lox.py:departure")
p("C39","Loxodrome",
  "loxodrome_direct along a meridian/parallel moves by the right amount; invalid latitude or negative range raises ValueError; zero range returns the start point on a sphere; loxodrome_inverse is consistent with direct on a sphere.",
  "all starts, azimuths, ranges", CONT, S+"lox.py")
p("C40","vdist always terminates and meets its contract",
  "vdist terminates after at most 50 iterations for every input, raises ValueError iff a latitude is outside [-90,90], azimuth in [0,360), coincident points give distance 0, the result is independent of adding 360 to longitudes, and for spheres the distance is the great-circle distance.",
  "all inputs, ellipsoids", "Loop termination and branch coverage over a continuum.", S+"vincenty.py:vdist")
p("C41","vreckon terminates and meets its contract",
  "The vreckon iteration (which has no iteration cap) terminates for every valid input on ellipsoids up to an explicit flattening; negative range or invalid latitude raises ValueError; longitude in [0,360), latitude in [-90,90]; on a sphere it is the great-circle destination; a first guess within 1e-12 of 2*pi skips the loop and yields NaN.",
  "all inputs", "Termination of an uncapped loop over all real inputs.", S+"vincenty.py:vreckon")
p("C42","track2 contract",
  "npts<2 raises ValueError, npts=2 returns the endpoints, antipodal endpoints raise ValueError, otherwise npts points are returned, at equal range steps from 0 to the distance.",
  "all endpoints and npts", CONT, S+"vincenty.py:track2")
p("C43","Karney arithmetic helpers",
  "Angle normalisation returns the representative in (-180,180] congruent mod 360; angle difference is exact; sine/cosine in degrees with quadrant reduction are sin/cos; degree atan2 equals atan2 with range [-180,180]; the series evaluator (Clenshaw) equals the explicit trigonometric sum for coefficient lists of every length; polynomial evaluator equals sum of powers.",
  "all reals, all coefficient lists of every length", "Universal over lengths and reals.", S+"karney.py:_AngNormalize", S+"karney.py:_sincosd", S+"karney.py:_atan2d", S+"karney.py:_SinCosSeries", S+"karney.py:_polyval")
p("C44","geodesic_direct contract",
  "Latitude in [-90,90], longitude in (-180,180], azimuth in [-180,180]; Clairaut's constant (distance from the axis times sin(azimuth)) is conserved; start longitude only shifts the result; the end point lies on the ellipsoid on the stretched great circle of the auxiliary sphere with the returned azimuth; on a sphere the result is the great-circle destination and azimuth exactly and zero distance returns the start; along the equator it is exact on every ellipsoid; at a pole the returned latitude is short of 90 degrees by up to 1.5e-8 rad.",
  "all inputs", CONT, S+"karney.py:geodesic_direct")
p("C45","geodesic_line contract",
  "Returns exactly npts points (0 for npts <= 0), the i-th being geodesic_direct from the start at distance i/(npts-1) of the total; on a sphere the points are equally spaced along the great circle from the first end point to the second.",
  "all endpoints, npts", "Unbounded npts.", S+"karney.py:geodesic_line")
p("C46","geodesic_area",
  "Fewer than 3 vertices raises ValueError, three or more never raise; the perimeter is the sum of the edge lengths (closing edge included); the area is the authalic radius squared times the sum of the turning angles, without the Gauss-Bonnet 2 pi term: the equator (half the ellipsoid) gets area 0, a degenerate polygon gets half the ellipsoid, and deg=False treats radian azimuths as degrees.",
  "all polygons (any number of vertices), all ellipsoids", "Unbounded vertex lists.", S+"karney.py:geodesic_area")
p("C47","Julian date",
  "juliandate of a UTC instant is the exact (proleptic Gregorian) day count: consecutive calendar days differ by exactly 1, the time of day contributes its exact fraction, J2000 is 2451545.0, so the function is strictly increasing in the instant.",
  "all dates/times in datetime range (proleptic Gregorian, every year >= 1)", "3.6 million days x microseconds.", S+"earth_orientation.py:juliandate")
p("C48","Leap seconds and TT",
  "leap_seconds is monotone, between 10 and 37, changes only at the tabulated instants; utc_to_tt adds leap+32.184 s; timezone-aware and naive-UTC representations of the same instant give the same result.",
  "all instants", "All instants.", S+"earth_orientation.py:leap_seconds", S+"earth_orientation.py:utc_to_tt")
p("C49","Sidereal time",
  "datetime2sidereal is in [0, 2 pi), shifts with longitude additively mod 2 pi, accepts lists of any nesting elementwise; greenwichsrt in [0,2 pi); mean sidereal rate exceeds solar rate (366.24 vs 365.24 turns per year).",
  "all times, longitudes, list lengths", "All instants; arbitrary lists.", S+"sidereal.py", S+"earth_orientation.py")
p("C50","ECI <-> ECEF rotation",
  "eci2ecef and ecef2eci (pure path) with the same time and Earth-orientation parameters are mutually inverse, preserve lengths and handedness (matrix is orthogonal with determinant +1).",
  "all vectors, instants, EOPs", CONT, S+"eci.py", S+"earth_orientation.py:eci_to_ecef_matrix")
p("C51","ECI <-> ECEF state transforms",
  "eci2ecef_state and ecef2eci_state are mutually inverse on position and velocity; position agrees with eci2ecef; velocity includes the motion of the frame: it is the time derivative of the Earth-fixed position of the moving point (rotation, precession, nutation) within 2e-14 of its distance from the centre per second, except within half a second of a leap second.",
  "all states, instants, EOPs", CONT, S+"eci.py:eci2ecef_state", S+"eci.py:_apply_state_rotation_scalar")
p("C52","Earth-orientation parameters in composite ECI functions",
  "geodetic2eci ignores delta_ut1/xp/yp (result never depends on them) whereas eci2geodetic uses them, so the pair is inverse only with zero parameters; eci2aer has no ellipsoid argument and uses WGS84 while aer2eci uses the given ellipsoid.",
  "all inputs", "Universal independence statement plus counterexample.", S+"ecef.py:geodetic2eci", S+"aer.py:eci2aer")
p("C53","azel <-> radec",
  "azel2radec and radec2azel (Vallado path) at the same place and time are mutually inverse away from the poles/zenith; outputs in range; |lat|>90 raises ValueError.",
  "all directions, sites, instants", CONT, S+"vallado.py")
p("C54","Time input normalisation",
  "Functions of time depend only on the instant: naive datetimes are treated as UTC, aware datetimes converted; str2dt is the identity on datetimes.",
  "all datetimes and UTC offsets", "All offsets and instants.", S+"timeconv.py:str2dt", S+"earth_orientation.py:ensure_utc")
p("C55","CLI argument coercion and dispatch",
  "The CLI passes numeric text as floats, comma lists as lists of floats, flags as booleans, injects the chosen ellipsoid for functions that take one, and reaches every exported function exactly once; omitted options have their Python defaults, except that a None default becomes the text 'None', so nvector_distance and nvector_cross_track_distance always fail without --radius; JSON output preserves every number and its order and is possible exactly when the result contains no numpy array.",
  "all argument strings, all signatures", "All strings.", S+"__main__.py")
p("C56","Input arrays are not modified, except where they are",
  "No function changes an array of the caller, whatever happens (including exceptions midway), except: enu2aer trims sub-millimetre entries of all three of the caller's numpy arrays in place, ned2aer/nwu2aer/sez2aer those of the two arrays they pass on, dca2aer that of the height array, and vdist/vreckon/track2 with deg=False move polar latitudes in the caller's arrays; enu2aer with an array for east and a scalar for north raises TypeError after having modified the array.",
  "all arrays of any length", "All array contents/aliasing patterns.", S+"enu.py:enu2aer", S+"vincenty.py:vdist")
p("C57","Degree and radian modes agree",
  "For every function with a deg flag, calling with deg=True on degree inputs equals calling with deg=False on the radian inputs, with angular outputs converted.",
  "all inputs of all such functions", CONT, S+"ecef.py", S+"enu.py", S+"latitude.py")
p("C58","Default ellipsoid is WGS84",
  "ell=None is equivalent to passing the WGS84 ellipsoid in every function.",
  "all inputs of all functions with ell", "Universal.", S+"ellipsoid.py:resolve_ellipsoid")
p("C59","Polar/spherical utilities",
  "pol2cart(cart2pol(x,y)) = (x,y), sph2cart(cart2sph(x,y,z)) = (x,y,z) exactly for all points; cart2pol(pol2cart) and cart2sph(sph2cart) invert on the canonical domain; ranges as documented.",
  "all reals", CONT, S+"utils.py")
p("C60","ECI array conversions act elementwise",
  "eci2ecef/ecef2eci on equally long arrays apply the scalar rotation to each element (any length), unequal shapes raise AssertionError; the state versions raise ValueError for every array length >= 2 (their loop overwrites the variables whose shape is used afterwards) and agree with the scalar function at lengths 0 and 1.",
  "all array lengths", "Unbounded array lengths.", S+"eci.py:_apply_rotation", S+"eci.py:_apply_state_rotation")
here = os.path.dirname(os.path.abspath(__file__))
extra = os.path.join(here, "props_extra.py")
if os.path.exists(extra): exec(open(extra).read())
with open(os.path.join(here, "..", "properties.jsonl"), "w") as f:
    for r in P: f.write(json.dumps(r, ensure_ascii=False)+"\n")
print(len(P))
