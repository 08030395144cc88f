{"id": "C01", "title": "geodetic2ecef places the point on the ellipsoid normal", "statement": "geodetic2ecef(lat, lon, alt, ell) returns the foot point of the given latitude/longitude - a point satisfying x^2/a^2+y^2/a^2+z^2/b^2 = 1 at which the outward unit normal of the ellipsoid is (cos lat cos lon, cos lat sin lon, sin lat) - displaced by exactly alt times that unit normal. In particular alt=0 is on the surface, |alt| is the distance to the foot point, and for alt >= 0 it is the distance to the whole ellipsoid.", "quantifier": "all latitudes, longitudes, altitudes, every ellipsoid with a >= b > 0, degrees and radians", "why_tests_cant": "The input space is a continuum; any finite set of sampled coordinates leaves uncountably many untested, and tolerance-based comparison cannot distinguish an exact identity from an approximate one.", "anchors": ["src/pymap3d/ecef.py:geodetic2ecef"]}
{"id": "C02", "title": "ecef2geodetic inverts geodetic2ecef exactly on the surface", "statement": "For every point of the reference surface, ecef2geodetic(geodetic2ecef(lat, lon, 0, ell), ell) = (lat, lon, 0) (lat in (-90,90), lon in (-180,180]); both the pure-Python scalar branch and the numpy branch (outside its documented snapping tolerances).", "quantifier": "all |lat|<90, all lon in (-180,180], every ellipsoid a >= b > 0, deg and rad, scalar and numpy branch", "why_tests_cant": "The input space is a continuum; any finite set of sampled coordinates leaves uncountably many untested, and tolerance-based comparison cannot distinguish an exact identity from an approximate one.", "anchors": ["src/pymap3d/ecef.py:ecef2geodetic", "src/pymap3d/ecef.py:geodetic2ecef"]}
{"id": "C03", "title": "ecef2geodetic is exact for spherical bodies", "statement": "When the two semi-axes are equal, ecef2geodetic inverts geodetic2ecef exactly at every altitude above the centre (alt > -a), on both branches away from snapping tolerances.", "quantifier": "all lat, lon, all altitudes > -radius, every radius", "why_tests_cant": "The input space is a continuum; any finite set of sampled coordinates leaves uncountably many untested, and tolerance-based comparison cannot distinguish an exact identity from an approximate one.", "anchors": ["src/pymap3d/ecef.py:ecef2geodetic"]}
{"id": "C04", "title": "ecef2geodetic is exact on the polar axis and in the equatorial plane", "statement": "For a point (0,0,z), |z|>0 the result is latitude +-90 and altitude |z|-b; for a point in the equatorial plane outside the focal disc (hypot(x,y) > sqrt(a^2-b^2)) the result is latitude 0, longitude atan2(y,x), altitude hypot(x,y)-a.", "quantifier": "all z, all equatorial points, every ellipsoid", "why_tests_cant": "The branch taken depends on exact zero tests; sampled points never explore the whole axis/plane.", "anchors": ["src/pymap3d/ecef.py:ecef2geodetic"]}
{"id": "C05", "title": "ecef2geodetic output contract", "statement": "For every ECEF point: latitude is in [-90,90], longitude in [-180,180] and satisfies x = hypot(x,y) cos lon, y = hypot(x,y) sin lon; altitude is negative or zero exactly when the point is inside the ellipsoid and >= 0 otherwise; |altitude| is never smaller than the true distance to the ellipsoid (it is the distance to some point of the surface).", "quantifier": "all ECEF points, all ellipsoids, both branches", "why_tests_cant": "The input space is a continuum; any finite set of sampled coordinates leaves uncountably many untested, and tolerance-based comparison cannot distinguish an exact identity from an approximate one.", "anchors": ["src/pymap3d/ecef.py:ecef2geodetic"]}
{"id": "C06", "title": "geodetic -> ECEF -> geodetic round trip at arbitrary altitude", "statement": "ecef2geodetic(geodetic2ecef(lat,lon,alt)) returns lon exactly and latitude/altitude within an explicit bound that is the error of the one-step You(2000) correction (WGS84, -12 km to 100 km: 3.4e-13 rad and 2.2 micrometres; to 1000 km: 2e-9 rad and 13 mm; any height: 5.8e-6 rad), and geodetic2ecef(ecef2geodetic(x,y,z)) returns within an explicit bound of every point on or outside the ellipsoid. Equivariance under rotation about the polar axis and the odd symmetry in z hold exactly.", "quantifier": "all lat, lon, alt, ellipsoids", "why_tests_cant": "The input space is a continuum; any finite set of sampled coordinates leaves uncountably many untested, and tolerance-based comparison cannot distinguish an exact identity from an approximate one.", "anchors": ["src/pymap3d/ecef.py:ecef2geodetic"]}
{"id": "C07", "title": "ENU <-> ECEF vector rotation is an isometry with exact inverse", "statement": "enu2uvw and uvw2enu (also ecef2enuv / enu2ecefv) are mutually inverse, preserve dot products and lengths, map the up axis to the ellipsoid normal, the east axis to the horizontal eastward direction and the north axis to the third axis of a right-handed frame.", "quantifier": "all vectors, all observer latitudes/longitudes, deg and rad", "why_tests_cant": "The input space is a continuum; any finite set of sampled coordinates leaves uncountably many untested, and tolerance-based comparison cannot distinguish an exact identity from an approximate one.", "anchors": ["src/pymap3d/ecef.py:enu2uvw", "src/pymap3d/ecef.py:uvw2enu", "src/pymap3d/ecef.py:ecef2enuv", "src/pymap3d/enu.py:enu2ecefv"]}
{"id": "C08", "title": "Local-frame point conversions are inverse, distance preserving, observer at origin", "statement": "ecef2enu/enu2ecef (and the NED, NWU, SEZ versions) are mutually inverse for the same observer, the distance between any two points is unchanged, the observer's own ECEF position maps to (0,0,0), and geodetic2X equals geodetic2ecef followed by ecef2X.", "quantifier": "all points, observers, ellipsoids, deg/rad", "why_tests_cant": "The input space is a continuum; any finite set of sampled coordinates leaves uncountably many untested, and tolerance-based comparison cannot distinguish an exact identity from an approximate one.", "anchors": ["src/pymap3d/ecef.py:ecef2enu", "src/pymap3d/ecef.py:enu2ecef", "src/pymap3d/ned.py", "src/pymap3d/nwu.py", "src/pymap3d/sez.py", "src/pymap3d/enu.py:geodetic2enu"]}
{"id": "C09", "title": "NED, NWU and SEZ are relabelled ENU, bit-for-bit", "statement": "Every ned/nwu/sez conversion returns exactly the ENU result with axes permuted and signs changed (N,E,-U), (N,-E,U), (-N,E,U), in any arithmetic (including IEEE floats), and their inverses consume that relabelling.", "quantifier": "all inputs, any number type/rounding", "why_tests_cant": "Equality must hold for every float input, including rounding.", "anchors": ["src/pymap3d/ned.py", "src/pymap3d/nwu.py", "src/pymap3d/sez.py"]}
{"id": "C10", "title": "Published rotation matrices agree with the functions", "statement": "ecef2X_matrix applied to a vector gives the same result as the ecef2X vector function, X2ecef_matrix is its transpose and inverse, has determinant +1 for right-handed frames, for X in ENU, NED, NWU, SEZ.", "quantifier": "all lat0, lon0, vectors, deg/rad", "why_tests_cant": "The input space is a continuum; any finite set of sampled coordinates leaves uncountably many untested, and tolerance-based comparison cannot distinguish an exact identity from an approximate one.", "anchors": ["src/pymap3d/frames.py", "src/pymap3d/enu.py:ecef2enu_matrix"]}
{"id": "C11", "title": "Body frame conversions", "statement": "X2body and body2X are mutually inverse isometries; the body vector does not depend on which local frame was used to express the input; yaw=pitch=roll=0 gives body = NED; body x axis for given yaw/pitch is (cos p cos y, cos p sin y, -sin p) in NED; an unknown frame or a sequence other than 'zyx' raises ValueError; geodetic2body = ecef2body o geodetic2ecef.", "quantifier": "all angles, vectors, frames strings, sequence strings", "why_tests_cant": "The input space is a continuum; any finite set of sampled coordinates leaves uncountably many untested, and tolerance-based comparison cannot distinguish an exact identity from an approximate one. Frame/sequence are arbitrary strings.", "anchors": ["src/pymap3d/body.py", "src/pymap3d/frames.py"]}
{"id": "C12", "title": "ENU <-> AER", "statement": "enu2aer returns azimuth in [0,360), elevation in [-90,90], range >= 0, range = Euclidean norm of the (1 mm trimmed) vector; aer2enu(enu2aer(v)) = v after trimming components below 1e-3 m to zero; enu2aer(aer2enu(az,el,r)) = (az,el,r) on the open domain when no component is trimmed.", "quantifier": "all ENU vectors, all az/el/range, deg/rad", "why_tests_cant": "The input space is a continuum; any finite set of sampled coordinates leaves uncountably many untested, and tolerance-based comparison cannot distinguish an exact identity from an approximate one.", "anchors": ["src/pymap3d/enu.py:enu2aer", "src/pymap3d/enu.py:aer2enu"]}
{"id": "C13", "title": "AER <-> ECEF/geodetic", "statement": "aer2ecef places the target at Euclidean distance |srange| from the observer; ecef2aer(aer2ecef(az,el,r)) returns (az,el,r) (no trimmed component); slant range of ecef2aer equals Euclidean distance between target and observer (within the 1 mm trim).", "quantifier": "all observers, targets, ellipsoids", "why_tests_cant": "The input space is a continuum; any finite set of sampled coordinates leaves uncountably many untested, and tolerance-based comparison cannot distinguish an exact identity from an approximate one.", "anchors": ["src/pymap3d/aer.py"]}
{"id": "C14", "title": "DCA (downrange, crossrange, above) frame", "statement": "enu2dca/dca2enu are mutually inverse isometries for every heading; downrange points along the heading, cross-range 90 degrees to the left of it; ned/ecef/geodetic/aer variants are the corresponding compositions and invert each other.", "quantifier": "all vectors and headings", "why_tests_cant": "The input space is a continuum; any finite set of sampled coordinates leaves uncountably many untested, and tolerance-based comparison cannot distinguish an exact identity from an approximate one.", "anchors": ["src/pymap3d/dca.py"]}
{"id": "C15", "title": "Ellipsoid derived parameters", "statement": "A constructed Ellipsoid(a,b) with a >= b > 0 has flattening (a-b)/a in [0,1), eccentricity with e^2 = 1-b^2/a^2 in [0,1), third flattening (a-b)/(a+b); b = a(1-f) = a sqrt(1-e^2); n = f/(2-f); construction fails with AssertionError exactly when the effective flattening is negative (a<b, a>0).", "quantifier": "all real a, b", "why_tests_cant": "The input space is a continuum; any finite set of sampled coordinates leaves uncountably many untested, and tolerance-based comparison cannot distinguish an exact identity from an approximate one.", "anchors": ["src/pymap3d/ellipsoid.py:Ellipsoid"]}
{"id": "C16", "title": "Every named model is a valid ellipsoid", "statement": "from_name(name) succeeds exactly for the names in the models table (KeyError otherwise), returns the tabulated axes, and every tabulated model has a >= b > 0 so all other properties apply to it; 'jupyter' is the same planet as 'jupiter'.", "quantifier": "all strings", "why_tests_cant": "The set of names is finite but the failing names are all other strings.", "anchors": ["src/pymap3d/ellipsoid.py:Ellipsoid.from_name", "src/pymap3d/ellipsoid.py:Ellipsoid.models"]}
{"id": "C17", "title": "Ellipsoid/geodesic cache histories", "statement": "Starting from a fresh process, after ANY sequence of from_name, geodesic look-ups and cache clears that does not mutate ellipsoid objects, from_name(name) returns an object equal to the table entry, repeated calls between clears return the identical object, and default-ellipsoid computations use WGS84. If the user mutates a returned named ellipsoid, subsequent from_name calls (and default wgs84 computations) observe the mutation until clear_ellipsoid_caches is called.", "quantifier": "all finite operation histories", "why_tests_cant": "Depends on unbounded operation histories of a mutable singleton cache.", "anchors": ["src/pymap3d/ellipsoid.py:_from_name_cached", "src/pymap3d/ellipsoid.py:clear_ellipsoid_caches"]}
{"id": "C18", "title": "Geodesic solver cache never returns a solver for another ellipsoid", "statement": "After any history of look-ups, ellipsoid mutations and clears, the solver returned for an ellipsoid is one built from the ellipsoid's CURRENT semi-major axis and flattening, so Karney results are independent of history.", "quantifier": "all finite operation histories including mutation of ellipsoids", "why_tests_cant": "Unbounded histories.", "anchors": ["src/pymap3d/ellipsoid.py:get_cached_geodesic", "src/pymap3d/karney.py:_Geodesic.__init__"]}
{"id": "C19", "title": "Radii of curvature", "statement": "transverse(lat) is the length of the normal from surface to polar axis; parallel(lat) is the distance of the surface point from the polar axis; meridian(lat) is the speed of the meridian curve (derivative of surface position w.r.t. latitude); b^2/a <= meridian <= a^2/b, a <= transverse <= a^2/b, meridian <= transverse, with equality of the two exactly at the poles when a>b.", "quantifier": "all latitudes and ellipsoids", "why_tests_cant": "The input space is a continuum; any finite set of sampled coordinates leaves uncountably many untested, and tolerance-based comparison cannot distinguish an exact identity from an approximate one.", "anchors": ["src/pymap3d/rcurve.py"]}
{"id": "C20", "title": "geocentric_radius is the distance of the surface point from the centre", "statement": "geocentric_radius(lat, ell) = Euclidean norm of geodetic2ecef(lat, lon, 0, ell) for every lon; lies between b and a.", "quantifier": "all lat, lon, ellipsoids", "why_tests_cant": "The input space is a continuum; any finite set of sampled coordinates leaves uncountably many untested, and tolerance-based comparison cannot distinguish an exact identity from an approximate one.", "anchors": ["src/pymap3d/rcurve.py:geocentric_radius"]}
{"id": "C21", "title": "Auxiliary spheres", "statement": "authalic radius: 4 pi R^2 equals the surface area of the ellipsoid; triaxial/biaxial/curve means satisfy norm <= mean and lie between b and a (curve between the curvature radii); rectifying radius lies in [b,a]; unknown method raises ValueError; for a sphere all equal the radius.", "quantifier": "all ellipsoids, all method strings", "why_tests_cant": "The input space is a continuum; any finite set of sampled coordinates leaves uncountably many untested, and tolerance-based comparison cannot distinguish an exact identity from an approximate one.", "anchors": ["src/pymap3d/rsphere.py"]}
{"id": "C22", "title": "Parametric (reduced) latitude", "statement": "geodetic2parametric returns the latitude beta with (a cos beta, b sin beta) = meridian point at the geodetic latitude; parametric2geodetic is its exact inverse on (-90,90); odd, strictly increasing, |beta| <= |lat|.", "quantifier": "all |lat|<90, ellipsoids", "why_tests_cant": "The input space is a continuum; any finite set of sampled coordinates leaves uncountably many untested, and tolerance-based comparison cannot distinguish an exact identity from an approximate one.", "anchors": ["src/pymap3d/latitude.py:geodetic2parametric", "src/pymap3d/latitude.py:parametric2geodetic"]}
{"id": "C23", "title": "Geocentric latitude", "statement": "geodetic2geocentric(lat, alt) is the geocentric latitude (atan of z over axis distance) of the ECEF point of geodetic2ecef(lat, lon, alt); geocentric2geodetic inverts it exactly at alt = 0, but is NOT the inverse at alt != 0 (it evaluates the prime-vertical radius at the geocentric latitude).", "quantifier": "all |lat|<90, alt > -b^2/a, ellipsoids", "why_tests_cant": "The input space is a continuum; any finite set of sampled coordinates leaves uncountably many untested, and tolerance-based comparison cannot distinguish an exact identity from an approximate one.", "anchors": ["src/pymap3d/latitude.py:geodetic2geocentric", "src/pymap3d/latitude.py:geocentric2geodetic"]}
{"id": "C24", "title": "Isometric latitude", "statement": "geodetic2isometric is odd, strictly increasing and its derivative is M/(N cos lat) (conformality) wherever |cos lat| > 1e-9; inside the 1e-9 cap it returns +-infinity with the sign of the latitude.", "quantifier": "all latitudes, ellipsoids", "why_tests_cant": "The input space is a continuum; any finite set of sampled coordinates leaves uncountably many untested, and tolerance-based comparison cannot distinguish an exact identity from an approximate one.", "anchors": ["src/pymap3d/latitude.py:geodetic2isometric"]}
{"id": "C25", "title": "Conformal latitude is the Gudermannian of the isometric latitude", "statement": "geodetic2conformal(lat) = 2 atan(exp(geodetic2isometric(lat))) - 90deg away from the polar cap, is odd, strictly increasing, maps +-90 to +-90, and isometric2geodetic(psi) = conformal2geodetic(gd psi).", "quantifier": "all latitudes, ellipsoids", "why_tests_cant": "The input space is a continuum; any finite set of sampled coordinates leaves uncountably many untested, and tolerance-based comparison cannot distinguish an exact identity from an approximate one.", "anchors": ["src/pymap3d/latitude.py:geodetic2conformal", "src/pymap3d/latitude.py:isometric2geodetic"]}
{"id": "C26", "title": "Series latitudes (rectifying, authalic, conformal inverse)", "statement": "geodetic2rectifying, rectifying2geodetic, geodetic2authalic, authalic2geodetic, conformal2geodetic are odd, fix 0 and +-90, are the identity on a sphere, satisfy f(180-lat) = 180-f(lat), and are strictly increasing for every flattening up to an explicit bound that covers every tabulated body.", "quantifier": "all latitudes; all ellipsoids up to the flattening bound", "why_tests_cant": "The input space is a continuum; any finite set of sampled coordinates leaves uncountably many untested, and tolerance-based comparison cannot distinguish an exact identity from an approximate one.", "anchors": ["src/pymap3d/latitude.py"]}
{"id": "C27", "title": "Series latitudes are accurate, and their round trips close", "statement": "For every oblate ellipsoid with e^2 <= 1/2 and n = (a-b)/(a+b): geodetic2rectifying(lat) is the length of the meridian from the equator scaled so that the pole is a right angle, up to a relative error 55 n^5; geodetic2authalic(lat) carries zones of the ellipsoid to zones of the sphere with the same fraction of the hemisphere, up to (0.51 e^8 + 6 e^10)|sin lat|; rectifying2geodetic and geodetic2rectifying undo each other (both orders) up to 415 n^5 (830 n^5) radians; authalic2geodetic and geodetic2authalic undo each other up to 1.5 e^8 (3 e^8) radians; rsphere.rectifying is the radius of the circle as long as the meridian up to n^4/50 + 31 n^5 relative to the mean semi-axis.", "quantifier": "all latitudes, all ellipsoids up to the flattening bound (every tabulated body)", "why_tests_cant": "The input space is a continuum; any finite set of sampled coordinates leaves uncountably many untested, and tolerance-based comparison cannot distinguish an exact identity from an approximate one.", "anchors": ["src/pymap3d/latitude.py:geodetic2rectifying", "src/pymap3d/latitude.py:rectifying2geodetic", "src/pymap3d/latitude.py:geodetic2authalic", "src/pymap3d/latitude.py:authalic2geodetic", "src/pymap3d/rsphere.py:rectifying"]}
{"id": "C28", "title": "geodetic2spherical gives spherical coordinates of the ECEF point", "statement": "geodetic2spherical(lat, lon, alt) = (spherical latitude, lon, radius) of geodetic2ecef(lat, lon, alt): radius is the norm, radius*sin(slat) = z, radius*cos(slat) = axis distance.", "quantifier": "all lat in [-90,90], lon, alt with nonzero radius", "why_tests_cant": "The input space is a continuum; any finite set of sampled coordinates leaves uncountably many untested, and tolerance-based comparison cannot distinguish an exact identity from an approximate one.", "anchors": ["src/pymap3d/spherical.py:geodetic2spherical"]}
{"id": "C29", "title": "spherical2geodetic is the exact inverse of geodetic2spherical", "statement": "spherical2geodetic(geodetic2spherical(lat, lon, alt)) = (lat, lon, alt) exactly (closed-form Vermeille solution) for all points outside the evolute neighbourhood used by the algorithm (r_0>0).", "quantifier": "all lat, lon, alt above the stated depth, ellipsoids", "why_tests_cant": "The input space is a continuum; any finite set of sampled coordinates leaves uncountably many untested, and tolerance-based comparison cannot distinguish an exact identity from an approximate one.", "anchors": ["src/pymap3d/spherical.py:spherical2geodetic"]}
{"id": "C30", "title": "Angular separation is the angle between directions", "statement": "anglesep / anglesep_meeus equal the angle between the two unit vectors; hence symmetric, zero iff same direction, in [0,180], triangle inequality, invariant under longitude shift.", "quantifier": "all pairs/triples of directions", "why_tests_cant": "The input space is a continuum; any finite set of sampled coordinates leaves uncountably many untested, and tolerance-based comparison cannot distinguish an exact identity from an approximate one.", "anchors": ["src/pymap3d/haversine.py"]}
{"id": "C31", "title": "n-vector conversions", "statement": "geodetic2nvector returns a unit vector equal to the ellipsoid normal; nvector2geodetic inverts it exactly on (-90,90)x(-180,180]; geodetic2nvector(nvector2geodetic(n)) = n for every unit vector; nvector2ecef(geodetic2nvector(lat,lon),alt) = geodetic2ecef(lat,lon,alt).", "quantifier": "all lat/lon, all unit vectors", "why_tests_cant": "The input space is a continuum; any finite set of sampled coordinates leaves uncountably many untested, and tolerance-based comparison cannot distinguish an exact identity from an approximate one.", "anchors": ["src/pymap3d/nvector.py"]}
{"id": "C32", "title": "nvector_distance is a metric on the sphere", "statement": "nvector_distance = radius * angle; symmetric, zero iff equal, bounded by pi*radius, triangle inequality; agrees with anglesep.", "quantifier": "all unit vectors, all radii >= 0", "why_tests_cant": "The input space is a continuum; any finite set of sampled coordinates leaves uncountably many untested, and tolerance-based comparison cannot distinguish an exact identity from an approximate one.", "anchors": ["src/pymap3d/nvector.py:nvector_distance"]}
{"id": "C33", "title": "nvector_interpolate moves uniformly along the great circle", "statement": "For non-identical, non-antipodal unit vectors the result is a unit vector in their plane at angle fraction*omega from the first and (1-fraction)*omega from the second, endpoints at fraction 0 and 1.", "quantifier": "all unit vectors, all fractions", "why_tests_cant": "The input space is a continuum; any finite set of sampled coordinates leaves uncountably many untested, and tolerance-based comparison cannot distinguish an exact identity from an approximate one.", "anchors": ["src/pymap3d/nvector.py:nvector_interpolate"]}
{"id": "C34", "title": "nvector mean, cross-track and intersection", "statement": "Intersection is a unit vector on both great circles and on the centroid's side; cross-track distance is zero exactly on the great circle, antisymmetric under path reversal and bounded by radius*pi/2; nvector_mean is unit length and independent of input order.", "quantifier": "all unit vectors / lists of any length", "why_tests_cant": "The input space is a continuum; any finite set of sampled coordinates leaves uncountably many untested, and tolerance-based comparison cannot distinguish an exact identity from an approximate one.", "anchors": ["src/pymap3d/nvector.py"]}
{"id": "C35", "title": "lookAtSpheroid finds the first intersection", "statement": "With the default ellipsoid: if it returns a range d then observer + d*line-of-sight lies on the ellipsoid, d >= 0, no smaller non-negative parameter is on or inside the ellipsoid, and returned lat/lon are those of the intersection point; if it returns NaN no point of the ray is on the ellipsoid; negative h0 raises ValueError.", "quantifier": "all observers h0>=0, azimuths, tilts", "why_tests_cant": "The input space is a continuum; any finite set of sampled coordinates leaves uncountably many untested, and tolerance-based comparison cannot distinguish an exact identity from an approximate one.", "anchors": ["src/pymap3d/los.py:lookAtSpheroid"]}
{"id": "C36", "title": "lookAtSpheroid ignores ell for the observer position", "statement": "For non-default ellipsoids the observer is placed using WGS84, so e.g. a nadir look does not return range h0; characterised exactly (observer ECEF and output geodetic conversion use WGS84 whatever ell is).", "quantifier": "all ellipsoids", "why_tests_cant": "A universally quantified independence statement.", "anchors": ["src/pymap3d/los.py:lookAtSpheroid"]}
{"id": "C37", "title": "Meridian arc", "statement": "meridian_arc is symmetric, non-negative, zero iff equal latitudes (below the flattening bound), additive over intermediate latitudes; meridian_dist(lat) = meridian_arc(0, lat); on a sphere it is R|dlat|; on every ellipsoid with e^2 <= 1/2 it is the true length of the meridian (integral along the ellipse) up to a relative error n^4/40 + 100 n^5 (2e-12 on WGS84).", "quantifier": "all latitudes, ellipsoids", "why_tests_cant": "The input space is a continuum; any finite set of sampled coordinates leaves uncountably many untested, and tolerance-based comparison cannot distinguish an exact identity from an approximate one.", "anchors": ["src/pymap3d/lox.py:meridian_arc"]}
{"id": "C38", "title": "Departure", "statement": "departure is symmetric in the longitudes, in [0, pi * parallel radius], periodic by 360 deg in each longitude, zero when longitudes agree mod 360, equals the arc length of the shorter way round the parallel.", "quantifier": "all longitudes, latitudes, ellipsoids", "why_tests_cant": "The input space is a continuum; any finite set of sampled coordinates leaves uncountably many untested, and tolerance-based comparison cannot distinguish an exact identity from an approximate one.", "anchors": ["src/pymap3d/lox.py:departure"]}
{"id": "C39", "title": "Loxodrome", "statement": "loxodrome_direct along a meridian/parallel moves by the right amount; invalid latitude or negative range raises ValueError; zero range returns the start point on a sphere; loxodrome_inverse is consistent with direct on a sphere.", "quantifier": "all starts, azimuths, ranges", "why_tests_cant": "The input space is a continuum; any finite set of sampled coordinates leaves uncountably many untested, and tolerance-based comparison cannot distinguish an exact identity from an approximate one.", "anchors": ["src/pymap3d/lox.py"]}
{"id": "C40", "title": "vdist always terminates and meets its contract", "statement": "vdist terminates after at most 50 iterations for every input, raises ValueError iff a latitude is outside [-90,90], azimuth in [0,360), coincident points give distance 0, the result is independent of adding 360 to longitudes, and for spheres the distance is the great-circle distance.", "quantifier": "all inputs, ellipsoids", "why_tests_cant": "Loop termination and branch coverage over a continuum.", "anchors": ["src/pymap3d/vincenty.py:vdist"]}
{"id": "C41", "title": "vreckon terminates and meets its contract", "statement": "The vreckon iteration (which has no iteration cap) terminates for every valid input on ellipsoids up to an explicit flattening; negative range or invalid latitude raises ValueError; longitude in [0,360), latitude in [-90,90]; on a sphere it is the great-circle destination; a first guess within 1e-12 of 2*pi skips the loop and yields NaN.", "quantifier": "all inputs", "why_tests_cant": "Termination of an uncapped loop over all real inputs.", "anchors": ["src/pymap3d/vincenty.py:vreckon"]}
{"id": "C42", "title": "track2 contract", "statement": "npts<2 raises ValueError, npts=2 returns the endpoints, antipodal endpoints raise ValueError, otherwise npts points are returned, at equal range steps from 0 to the distance.", "quantifier": "all endpoints and npts", "why_tests_cant": "The input space is a continuum; any finite set of sampled coordinates leaves uncountably many untested, and tolerance-based comparison cannot distinguish an exact identity from an approximate one.", "anchors": ["src/pymap3d/vincenty.py:track2"]}
{"id": "C43", "title": "Karney arithmetic helpers", "statement": "Angle normalisation returns the representative in (-180,180] congruent mod 360; angle difference is exact; sine/cosine in degrees with quadrant reduction are sin/cos; degree atan2 equals atan2 with range [-180,180]; the series evaluator (Clenshaw) equals the explicit trigonometric sum for coefficient lists of every length; polynomial evaluator equals sum of powers.", "quantifier": "all reals, all coefficient lists of every length", "why_tests_cant": "Universal over lengths and reals.", "anchors": ["src/pymap3d/karney.py:_AngNormalize", "src/pymap3d/karney.py:_sincosd", "src/pymap3d/karney.py:_atan2d", "src/pymap3d/karney.py:_SinCosSeries", "src/pymap3d/karney.py:_polyval"]}
{"id": "C44", "title": "geodesic_direct contract", "statement": "Latitude in [-90,90], longitude in (-180,180], azimuth in [-180,180]; Clairaut's constant (distance from the axis times sin(azimuth)) is conserved; start longitude only shifts the result; the end point lies on the ellipsoid on the stretched great circle of the auxiliary sphere with the returned azimuth; on a sphere the result is the great-circle destination and azimuth exactly and zero distance returns the start; along the equator it is exact on every ellipsoid; at a pole the returned latitude is short of 90 degrees by up to 1.5e-8 rad.", "quantifier": "all inputs", "why_tests_cant": "The input space is a continuum; any finite set of sampled coordinates leaves uncountably many untested, and tolerance-based comparison cannot distinguish an exact identity from an approximate one.", "anchors": ["src/pymap3d/karney.py:geodesic_direct"]}
{"id": "C45", "title": "geodesic_line contract", "statement": "Returns exactly npts points (0 for npts <= 0), the i-th being geodesic_direct from the start at distance i/(npts-1) of the total; on a sphere the points are equally spaced along the great circle from the first end point to the second.", "quantifier": "all endpoints, npts", "why_tests_cant": "Unbounded npts.", "anchors": ["src/pymap3d/karney.py:geodesic_line"]}
{"id": "C46", "title": "geodesic_area", "statement": "Fewer than 3 vertices raises ValueError, three or more never raise; the perimeter is the sum of the edge lengths (closing edge included); the area is the authalic radius squared times the sum of the turning angles, without the Gauss-Bonnet 2 pi term: the equator (half the ellipsoid) gets area 0, a degenerate polygon gets half the ellipsoid, and deg=False treats radian azimuths as degrees.", "quantifier": "all polygons (any number of vertices), all ellipsoids", "why_tests_cant": "Unbounded vertex lists.", "anchors": ["src/pymap3d/karney.py:geodesic_area"]}
{"id": "C47", "title": "Julian date", "statement": "juliandate of a UTC instant is the exact (proleptic Gregorian) day count: consecutive calendar days differ by exactly 1, the time of day contributes its exact fraction, J2000 is 2451545.0, so the function is strictly increasing in the instant.", "quantifier": "all dates/times in datetime range (proleptic Gregorian, every year >= 1)", "why_tests_cant": "3.6 million days x microseconds.", "anchors": ["src/pymap3d/earth_orientation.py:juliandate"]}
{"id": "C48", "title": "Leap seconds and TT", "statement": "leap_seconds is monotone, between 10 and 37, changes only at the tabulated instants; utc_to_tt adds leap+32.184 s; timezone-aware and naive-UTC representations of the same instant give the same result.", "quantifier": "all instants", "why_tests_cant": "All instants.", "anchors": ["src/pymap3d/earth_orientation.py:leap_seconds", "src/pymap3d/earth_orientation.py:utc_to_tt"]}
{"id": "C49", "title": "Sidereal time", "statement": "datetime2sidereal is in [0, 2 pi), shifts with longitude additively mod 2 pi, accepts lists of any nesting elementwise; greenwichsrt in [0,2 pi); mean sidereal rate exceeds solar rate (366.24 vs 365.24 turns per year).", "quantifier": "all times, longitudes, list lengths", "why_tests_cant": "All instants; arbitrary lists.", "anchors": ["src/pymap3d/sidereal.py", "src/pymap3d/earth_orientation.py"]}
{"id": "C50", "title": "ECI <-> ECEF rotation", "statement": "eci2ecef and ecef2eci (pure path) with the same time and Earth-orientation parameters are mutually inverse, preserve lengths and handedness (matrix is orthogonal with determinant +1).", "quantifier": "all vectors, instants, EOPs", "why_tests_cant": "The input space is a continuum; any finite set of sampled coordinates leaves uncountably many untested, and tolerance-based comparison cannot distinguish an exact identity from an approximate one.", "anchors": ["src/pymap3d/eci.py", "src/pymap3d/earth_orientation.py:eci_to_ecef_matrix"]}
{"id": "C51", "title": "ECI <-> ECEF state transforms", "statement": "eci2ecef_state and ecef2eci_state are mutually inverse on position and velocity; position agrees with eci2ecef; velocity includes the motion of the frame: it is the time derivative of the Earth-fixed position of the moving point (rotation, precession, nutation) within 2e-14 of its distance from the centre per second, except within half a second of a leap second.", "quantifier": "all states, instants, EOPs", "why_tests_cant": "The input space is a continuum; any finite set of sampled coordinates leaves uncountably many untested, and tolerance-based comparison cannot distinguish an exact identity from an approximate one.", "anchors": ["src/pymap3d/eci.py:eci2ecef_state", "src/pymap3d/eci.py:_apply_state_rotation_scalar"]}
{"id": "C52", "title": "Earth-orientation parameters in composite ECI functions", "statement": "geodetic2eci ignores delta_ut1/xp/yp (result never depends on them) whereas eci2geodetic uses them, so the pair is inverse only with zero parameters; eci2aer has no ellipsoid argument and uses WGS84 while aer2eci uses the given ellipsoid.", "quantifier": "all inputs", "why_tests_cant": "Universal independence statement plus counterexample.", "anchors": ["src/pymap3d/ecef.py:geodetic2eci", "src/pymap3d/aer.py:eci2aer"]}
{"id": "C53", "title": "azel <-> radec", "statement": "azel2radec and radec2azel (Vallado path) at the same place and time are mutually inverse away from the poles/zenith; outputs in range; |lat|>90 raises ValueError.", "quantifier": "all directions, sites, instants", "why_tests_cant": "The input space is a continuum; any finite set of sampled coordinates leaves uncountably many untested, and tolerance-based comparison cannot distinguish an exact identity from an approximate one.", "anchors": ["src/pymap3d/vallado.py"]}
{"id": "C54", "title": "Time input normalisation", "statement": "Functions of time depend only on the instant: naive datetimes are treated as UTC, aware datetimes converted; str2dt is the identity on datetimes.", "quantifier": "all datetimes and UTC offsets", "why_tests_cant": "All offsets and instants.", "anchors": ["src/pymap3d/timeconv.py:str2dt", "src/pymap3d/earth_orientation.py:ensure_utc"]}
{"id": "C55", "title": "CLI argument coercion and dispatch", "statement": "The CLI passes numeric text as floats, comma lists as lists of floats, flags as booleans, injects the chosen ellipsoid for functions that take one, and reaches every exported function exactly once; omitted options have their Python defaults, except that a None default becomes the text 'None', so nvector_distance and nvector_cross_track_distance always fail without --radius; JSON output preserves every number and its order and is possible exactly when the result contains no numpy array.", "quantifier": "all argument strings, all signatures", "why_tests_cant": "All strings.", "anchors": ["src/pymap3d/__main__.py"]}
{"id": "C56", "title": "Input arrays are not modified, except where they are", "statement": "No function changes an array of the caller, whatever happens (including exceptions midway), except: enu2aer trims sub-millimetre entries of all three of the caller's numpy arrays in place, ned2aer/nwu2aer/sez2aer those of the two arrays they pass on, dca2aer that of the height array, and vdist/vreckon/track2 with deg=False move polar latitudes in the caller's arrays; enu2aer with an array for east and a scalar for north raises TypeError after having modified the array.", "quantifier": "all arrays of any length", "why_tests_cant": "All array contents/aliasing patterns.", "anchors": ["src/pymap3d/enu.py:enu2aer", "src/pymap3d/vincenty.py:vdist"]}
{"id": "C57", "title": "Degree and radian modes agree", "statement": "For every function with a deg flag, calling with deg=True on degree inputs equals calling with deg=False on the radian inputs, with angular outputs converted.", "quantifier": "all inputs of all such functions", "why_tests_cant": "The input space is a continuum; any finite set of sampled coordinates leaves uncountably many untested, and tolerance-based comparison cannot distinguish an exact identity from an approximate one.", "anchors": ["src/pymap3d/ecef.py", "src/pymap3d/enu.py", "src/pymap3d/latitude.py"]}
{"id": "C58", "title": "Default ellipsoid is WGS84", "statement": "ell=None is equivalent to passing the WGS84 ellipsoid in every function.", "quantifier": "all inputs of all functions with ell", "why_tests_cant": "Universal.", "anchors": ["src/pymap3d/ellipsoid.py:resolve_ellipsoid"]}
{"id": "C59", "title": "Polar/spherical utilities", "statement": "pol2cart(cart2pol(x,y)) = (x,y), sph2cart(cart2sph(x,y,z)) = (x,y,z) exactly for all points; cart2pol(pol2cart) and cart2sph(sph2cart) invert on the canonical domain; ranges as documented.", "quantifier": "all reals", "why_tests_cant": "The input space is a continuum; any finite set of sampled coordinates leaves uncountably many untested, and tolerance-based comparison cannot distinguish an exact identity from an approximate one.", "anchors": ["src/pymap3d/utils.py"]}
{"id": "C60", "title": "ECI array conversions act elementwise", "statement": "eci2ecef/ecef2eci on equally long arrays apply the scalar rotation to each element (any length), unequal shapes raise AssertionError; the state versions raise ValueError for every array length >= 2 (their loop overwrites the variables whose shape is used afterwards) and agree with the scalar function at lengths 0 and 1.", "quantifier": "all array lengths", "why_tests_cant": "Unbounded array lengths.", "anchors": ["src/pymap3d/eci.py:_apply_rotation", "src/pymap3d/eci.py:_apply_state_rotation"]}
{"id": "C61", "title": "Geodesic solver cache under threads", "statement": "For any number of threads calling the Karney functions with any interleaving (and concurrent cache clears), if no thread assigns to ellipsoid fields then every look-up returns the solver of its own ellipsoid; if another thread assigns to the ellipsoid between the key computation and the solver construction, the shared cache is left mapping the old parameters to a solver for the new ones, so later sequential calls on other ellipsoid objects are wrong.", "quantifier": "all numbers of threads and all schedules", "why_tests_cant": "Schedules cannot be enumerated by unit tests.", "anchors": ["src/pymap3d/ellipsoid.py:get_cached_geodesic", "src/pymap3d/ellipsoid.py:_geodesic_cache"]}
{"id": "C62", "title": "geodesic_inverse contract", "statement": "Azimuths lie in (-180,180]; the distance is invariant under exchanging the points, reflecting both in the equator or a meridian, and turning both about the axis (azimuths too), including whole turns; on a sphere the distance is R times the central angle and the azimuths are those of the great circle, for all non-polar points; at a pole the distance is wrong by up to R*1.5e-8.", "quantifier": "all pairs of points, all ellipsoids", "why_tests_cant": "The input space is a continuum; any finite set of sampled coordinates leaves uncountably many untested, and tolerance-based comparison cannot distinguish an exact identity from an approximate one.", "anchors": ["src/pymap3d/karney.py:geodesic_inverse", "src/pymap3d/karney.py:_Inverse"]}
{"id": "C63", "title": "omitted optional arguments", "statement": "Calling any function without its optional arguments gives exactly the result of passing, in the documented positional order, the WGS84 ellipsoid for ell, True for deg, 'zyx' for sequence, 'ned' for frame, 'mean' for method, 100 for npts, 0 for alt, no radius, and zero for the Earth-orientation parameters.", "quantifier": "all inputs of all 140 functions with optional arguments, any arithmetic (also floating point)", "why_tests_cant": "The default must be right for every input of every function; tests usually pass one or the other form.", "anchors": ["src/pymap3d/ecef.py", "src/pymap3d/enu.py", "src/pymap3d/body.py", "src/pymap3d/latitude.py", "src/pymap3d/karney.py", "src/pymap3d/eci.py"]}
{"id": "C64", "title": "geodetic <-> local frame round trips", "statement": "geodetic -> ENU/NED/NWU/SEZ/DCA/body -> geodetic gives exactly the geodetic -> ECEF -> geodetic result whatever the observer, heading or attitude (WGS84, -12..100 km: longitude exact, latitude within 3.4e-13 rad, altitude within 2.2 micrometres); through AER the same up to a displacement below 1.8 mm caused by the millimetre trimming; local -> geodetic -> local returns within the ECEF round-trip bound for targets on or outside the ellipsoid.", "quantifier": "all targets, observers, headings, attitudes, ellipsoids", "why_tests_cant": "The input space is a continuum; any finite set of sampled coordinates leaves uncountably many untested, and tolerance-based comparison cannot distinguish an exact identity from an approximate one.", "anchors": ["src/pymap3d/enu.py:enu2geodetic", "src/pymap3d/enu.py:geodetic2enu", "src/pymap3d/ned.py", "src/pymap3d/nwu.py", "src/pymap3d/sez.py", "src/pymap3d/dca.py", "src/pymap3d/body.py", "src/pymap3d/aer.py:aer2geodetic"]}
{"id": "C65", "title": "geographic mean", "statement": "meanm returns the geodetic latitude/longitude of the direction of the vector sum of the authalic directions of the points: the result lies in range, does not depend on the order of the points or on counting all of them the same number of times, is the point itself for a single point, and commutes with reflection in the equator and with rotation about the axis.", "quantifier": "all non-empty finite lists of points with non-zero vector sum, all ellipsoids", "why_tests_cant": "Holds for lists of every length and every permutation.", "anchors": ["src/pymap3d/lox.py:meanm", "src/pymap3d/latitude.py:geodetic2authalic", "src/pymap3d/utils.py:sph2cart", "src/pymap3d/utils.py:cart2sph"]}
{"id": "C66", "title": "geoc2geod accuracy", "statement": "For every point on or above the ellipsoid, geoc2geod applied to its geocentric latitude psi and distance rho = r*a gives the geodetic latitude plus f^2/(2r) sin(4 psi), up to 20 f^3: the series is exact on a sphere, at the equator and at the poles, but its second-order coefficient has the wrong sign, so that on WGS84 the error reaches 2.6e-4 degrees (29 m).", "quantifier": "all latitudes, altitudes >= 0, ellipsoids with f <= 1/10", "why_tests_cant": "The input space is a continuum; any finite set of sampled coordinates leaves uncountably many untested, and tolerance-based comparison cannot distinguish an exact identity from an approximate one.", "anchors": ["src/pymap3d/latitude.py:geoc2geod"]}
{"id": "C67", "title": "geodesic_direct follows the geodesic", "statement": "geodesic_direct returns the end of the true geodesic: of the unit-speed curve on the ellipsoid whose acceleration is normal to the surface, starting at the given point with the given azimuth, after the given distance.  The geodesic continued from the returned point with the returned azimuth stays within n^7(90|s12| + 822 b) of it everywhere (n third flattening, b polar radius); on WGS84 the point is within 1 nm for distances up to 50000 km.", "quantifier": "all ellipsoids with f <= 1/10, all starts further than 1.5e-8 rad from a pole, azimuths and distances (also several turns, also negative)", "why_tests_cant": "The input space is a continuum; any finite set of sampled coordinates leaves uncountably many untested, and tolerance-based comparison cannot distinguish an exact identity from an approximate one.", "anchors": ["src/pymap3d/karney.py:geodesic_direct", "src/pymap3d/karney.py:_Direct", "src/pymap3d/karney.py:_A1m1f", "src/pymap3d/karney.py:_C1f", "src/pymap3d/karney.py:_C1pf", "src/pymap3d/karney.py:_A3f", "src/pymap3d/karney.py:_C3f"]}
{"id": "C68", "title": "euler: radius of curvature between two points", "statement": "euler answers for all latitudes in [-90, 90] and raises ValueError otherwise; 1/r = cos^2(az)/meridian + sin^2(az)/transverse at the mean latitude with the azimuth vdist reports; r is exactly the radius of curvature, at the mean latitude, of the geodesic with that azimuth, lies between the two principal radii, and is the radius on a sphere.", "quantifier": "all pairs of points, all ellipsoids, both units", "why_tests_cant": "The input space is a continuum; any finite set of sampled coordinates leaves uncountably many untested, and tolerance-based comparison cannot distinguish an exact identity from an approximate one.", "anchors": ["src/pymap3d/rsphere.py:euler"]}
{"id": "C69", "title": "vreckon and track2 follow the geodesic", "statement": "vreckon returns the end of the true geodesic (unit-speed curve on the ellipsoid with acceleration normal to the surface, leaving the given point in the given azimuth) within (0.175 + 6f) f^4 rng + 1.5e-12 b; on WGS84 within 0.025 mm per 1000 km plus 0.01 mm.  The same holds for every element of an array call and for every intermediate point of track2 (with vdist's azimuth and distance).", "quantifier": "all ellipsoids with f <= 1/10, all starts further than 1e-10 rad from a pole, all azimuths and ranges >= 0 except the one range returning NaN, arrays of any length", "why_tests_cant": "The input space is a continuum; any finite set of sampled coordinates leaves uncountably many untested, and tolerance-based comparison cannot distinguish an exact identity from an approximate one.", "anchors": ["src/pymap3d/vincenty.py:vreckon", "src/pymap3d/vincenty.py:track2"]}
{"id": "C70", "title": "vdist solves the inverse geodesic problem", "statement": "For two points whose geodetic directions are at most 2.95 rad (169 degrees) apart, vdist returns a distance and an azimuth such that the one geodesic of the ellipsoid that leaves the first point in that azimuth passes, at that distance, within (0.175 + 6f) f^4 d + (2.6e-12 + 1.7e-10 f) b of the second point (WGS84: 0.025 mm per 1000 km plus 0.021 mm).  Hence vreckon with vdist's answer returns to the second point, and the last point of track2 is the second point, within twice that.", "quantifier": "all pairs of points further than 1e-10 rad from a pole, all ellipsoids with f <= 1/150; for f <= 1/10 all answers d <= 3b other than the non-converged fallback", "why_tests_cant": "The iteration has to converge for every pair of points, and the answer has to be right for all of them.", "anchors": ["src/pymap3d/vincenty.py:vdist", "src/pymap3d/vincenty.py:vreckon", "src/pymap3d/vincenty.py:track2"]}
{"id": "C71", "title": "eci2ecef is the published Earth rotation, with polar motion reversed", "statement": "Without polar motion, eci2ecef is exactly the IAU 1976 precession (Lieske), the leading terms of the nutation, and a turn by the IAU 1982 apparent sidereal time, at the UT1 and TT Julian dates of the given instant.  With polar motion xp, yp it applies the inverse of the IERS matrix R1(-yp)R2(-xp): the celestial pole is put on the opposite side of the Earth-fixed pole, so for xp <> 0 the result differs from the IERS reduction.", "quantifier": "all position vectors, all valid times, all polar-motion parameters", "why_tests_cant": "The input space is a continuum; any finite set of sampled coordinates leaves uncountably many untested, and tolerance-based comparison cannot distinguish an exact identity from an approximate one.", "anchors": ["src/pymap3d/earth_orientation.py:eci_to_ecef_matrix", "src/pymap3d/earth_orientation.py:polar_motion_matrix", "src/pymap3d/earth_orientation.py:precession_matrix", "src/pymap3d/earth_orientation.py:nutation_matrix", "src/pymap3d/eci.py:eci2ecef"]}
{"id": "C72", "title": "built-in ellipsoids are the published ones", "statement": "Ellipsoid.from_name knows exactly 38 names.  Every figure of the Earth has the published equatorial radius and the polar radius of the published flattening to a millimetre (IERS 2003: 43 mm); wgs84_mean is the sphere of radius (2a+b)/3; the other bodies agree with the IAU radii within 0.13 per cent, except that the radii of Io are in kilometres and hence 1000 times too small.", "quantifier": "all names (every string)", "why_tests_cant": "A wrong or missing entry is only seen by a test that uses that entry; the claim is about every string.", "anchors": ["src/pymap3d/ellipsoid.py:Ellipsoid.models", "src/pymap3d/ellipsoid.py:Ellipsoid.from_name"]}
{"id": "C73", "title": "geodesic_inverse solves the inverse geodesic problem", "statement": "On every ellipsoid with flattening at most 1/150, for two points at most 2.05 rad (117 degrees; WGS84: 2.5 rad, 143 degrees) apart, the geodesic that leaves the first point with the first returned azimuth passes, at the returned distance and ever after, within a(260 n^7 + 2.5e-15) (WGS84: 20 nanometres) of the geodesic that leaves the second point with the second returned azimuth; the distance is at most half the equator.  Hence on WGS84 geodesic_direct with the answer of geodesic_inverse ends within 21 nm of the second point, and every point of geodesic_line lies on the geodesic between the ends.", "quantifier": "all pairs of points whose latitude has a cosine of at least 1.5e-8 and that are not both beyond 80.4 degrees on nearly opposite meridians", "why_tests_cant": "The Newton iteration has to converge, and to the right azimuth, for every pair of points.", "anchors": ["src/pymap3d/karney.py:geodesic_inverse", "src/pymap3d/karney.py:_Inverse", "src/pymap3d/karney.py:_InverseStart", "src/pymap3d/karney.py:_Lambda12", "src/pymap3d/karney.py:_Lengths", "src/pymap3d/karney.py:geodesic_line"]}
{"id": "C74", "title": "the returned distance is the shortest distance", "statement": "The distance returned by vdist and by geodesic_inverse is the length of the shortest way along the surface of the ellipsoid - the greatest lower bound over all curves on the surface joining the two points, not only over geodesics - up to the accuracy bounds: vdist within 1.001((0.175 + 6f) f^4 d + (2.6e-12 + 1.7e-10 f) b) (WGS84: 0.026 mm per 1000 km plus 0.022 mm), geodesic_inverse within 3.01 a(260 n^7 + 2.5e-15) (WGS84: 61 nanometres).", "quantifier": "all pairs of points up to 2.5 rad apart (vdist; WGS84 2.66 rad, 16970 km) or under the hypotheses of C73 (geodesic_inverse), all ellipsoids with f <= 1/150; all competing curves", "why_tests_cant": "The claim compares the answer with infinitely many curves, for infinitely many pairs of points.", "anchors": ["src/pymap3d/vincenty.py:vdist", "src/pymap3d/karney.py:geodesic_inverse"]}
{"id": "C75", "title": "distances behave like distances", "statement": "The distance along the surface is a metric, at least the straight distance, and lies between b and a times the angle of the reduced directions.  anglesep and anglesep_meeus times R are exactly the shortest distance on the sphere of radius R.  The distances of vdist and of geodesic_inverse obey the triangle inequality and are at least the straight distance, up to their accuracy bounds, and on WGS84 the two functions return the same distance within 0.026 mm per 1000 km plus 0.023 mm.", "quantifier": "all triples of points in the range of C74", "why_tests_cant": "A law between three calls, for all triples of points.", "anchors": ["src/pymap3d/vincenty.py:vdist", "src/pymap3d/karney.py:geodesic_inverse", "src/pymap3d/haversine.py:anglesep", "src/pymap3d/haversine.py:anglesep_meeus"]}
{"id": "C76", "title": "geodetic2ecef with rounded arithmetic", "statement": "When every operation is rounded as in floating-point arithmetic with unit roundoff u (basic operations and square root correctly rounded, library functions within four units in the last place), each coordinate returned by geodetic2ecef differs from the exact one by at most 164 u (a^2/b + |alt|); on WGS84 in double precision, up to 1000 km from the surface, by at most 0.14 micrometres.", "quantifier": "all such arithmetics with u <= 1e-6, all latitudes in [-90, 90], longitudes in [-360, 360], altitudes, all ellipsoids with a^2 <= 2 b^2, both units", "why_tests_cant": "Rounding errors accumulate differently for every input.", "anchors": ["src/pymap3d/ecef.py:geodetic2ecef"]}
{"id": "C77", "title": "local frames with rounded arithmetic", "statement": "In floating-point arithmetic with unit roundoff u the rotations uvw2enu and enu2uvw are exact up to 280 u times the length of the vector and there and back up to 1120 u; ecef2enu, geodetic2enu, enu2ecef, aer2enu and aer2ecef are exact up to a stated multiple (at most 780) of u times the size of the coordinates involved; enu2aer has relative error at most 17 u in range, 25 u in elevation and absolute error 18 u of a full turn in azimuth.  On WGS84 in double precision geodetic2enu is within 1.3 micrometres.", "quantifier": "all such arithmetics with u <= 1e-6, all vectors, observers and points; for enu2aer components not exactly at the 1 mm trimming limit", "why_tests_cant": "Rounding errors accumulate differently for every input.", "anchors": ["src/pymap3d/enu.py:uvw2enu", "src/pymap3d/enu.py:enu2uvw", "src/pymap3d/ecef.py:ecef2enu", "src/pymap3d/enu.py:geodetic2enu", "src/pymap3d/enu.py:enu2ecef", "src/pymap3d/aer.py:aer2ecef", "src/pymap3d/enu.py:enu2aer", "src/pymap3d/enu.py:aer2enu"]}
{"id": "C78", "title": "ecef2geodetic and the geodetic round trip with rounded arithmetic", "statement": "In floating-point arithmetic with unit roundoff u, on every ellipsoid with axes within 1 %, ecef2geodetic (scalars) applied to coordinates that already carry up to 190 roundings returns what exact arithmetic returns at the exact point up to 513 u radians of latitude, (423 r/rho + 51) u radians of longitude modulo full turns and 1108 u r of altitude, and gets the sign of the altitude right unless the point is within 693 u of the surface; geodetic2ecef followed by ecef2geodetic returns latitude, longitude and altitude within the error of the closed formula (C06) plus 513 u, (423/cos lat + 51) u and 1840 u (a + |alt|).  On WGS84 in double precision from 12 km below to 12 km above the surface: 5.8e-14 rad of latitude and 1.4 micrometres of altitude; up to 100 km 4e-13 rad and 3.5 micrometres.", "quantifier": "all arithmetics with relative rounding error at most u <= 1e-10 (binary64 included), all latitudes not within 500 u of a pole, all longitudes, all altitudes above minus a twentieth of the radius, degrees or radians", "why_tests_cant": "Cancellation of rounding errors differs for every input; tests sample a few points.", "anchors": ["src/pymap3d/ecef.py:ecef2geodetic", "src/pymap3d/ecef.py:geodetic2ecef"]}
{"id": "C79", "title": "Loxodromes are rhumb lines of the ellipsoid", "statement": "For two points off the polar caps, at most half a turn apart in longitude, a rhumb line of the ellipsoid (a curve on the surface whose velocity is everywhere the unit vector with one fixed azimuth) with exactly the course returned by loxodrome_inverse leads from the first point to the second, and its length is the returned distance up to the relative error n^4/40 + 100 n^5 + 3.2e-9 (n the third flattening; without the last term unless the course is within 1e-9 of east or west; WGS84: 2e-12 and 3.21e-9); the shortest way along the surface is no longer. The point returned by loxodrome_direct lies on the rhumb line with the given course from the given point, at a length equal to the range up to 1.02((n^4/40 + 100 n^5) range + 830 n^5 R/|cos course|) (WGS84: 2e-12 range + 0.08 mm/|cos course|); due east and west the longitude is exact and the latitude moves by at most 415 n^5. A rhumb line is determined by its first point and its course. (Defect: on WGS84 a course within 1e-7 degrees of east, but not within the code's 1e-9 threshold, moves the point by 0.003 degrees even for range 0.)", "quantifier": "all ellipsoids with a^2 <= 2 b^2, all points off the polar caps, all courses and ranges, degrees or radians", "why_tests_cant": "The true curve is a solution of a differential equation; tests compare a few values of another program.", "anchors": ["src/pymap3d/lox.py:loxodrome_inverse", "src/pymap3d/lox.py:loxodrome_direct"]}
{"id": "C80", "title": "Array calls act element by element", "statement": "Called with numpy arrays of one shape, every coordinate conversion returns at each index exactly what the call on the elements at that index returns, in every arithmetic: also the functions that select with boolean masks (ecef2geodetic and all conversions to geodetic, enu2aer and all conversions to azimuth/elevation, geodetic2isometric, departure, loxodrome_inverse, loxodrome_direct, lookAtSpheroid), whose scratch memory from empty_like never reaches the result; loxodrome_direct and lookAtSpheroid raise iff they would raise for one of the elements.", "quantifier": "all arrays of every shape and size, all element values, all ellipsoids, degrees or radians, any content of uninitialised memory", "why_tests_cant": "Masks select a different set of elements for every input; a leak of uninitialised memory is not reproducible.", "anchors": ["src/pymap3d/ecef.py:ecef2geodetic", "src/pymap3d/enu.py:enu2aer", "src/pymap3d/latitude.py:geodetic2isometric", "src/pymap3d/lox.py:loxodrome_inverse", "src/pymap3d/lox.py:loxodrome_direct", "src/pymap3d/los.py:lookAtSpheroid"]}
{"id": "C81", "title": "Mixing numbers and arrays in one call", "statement": "Which mixtures of Python numbers, numpy scalars and arrays (of different shapes) are accepted, with numpy installed: geodetic2aer and lookAtSpheroid accept every mixture that numpy can broadcast. ecef2geodetic accepts it iff z has the full shape and so have x and y together (if z is a Python number: iff all three are single values); hence enu2geodetic and ned2geodetic accept it iff north, up and the observer's latitude and altitude together have the full shape, aer2geodetic iff everything but the observer's longitude has, and converting back the result of geodetic2ecef works iff latitude and altitude together have the full shape (defects: an array of eastings with scalar northings raises, and so does the round trip of several longitudes at one latitude). enu2aer needs three arrays or three single values; ecef2aer raises for an array of z alone. The latitudes returned by ecef2geodetic lose the axes of length one, longitudes and altitudes keep them.", "quantifier": "all combinations of kinds and shapes of all arguments, any number of axes and any lengths, all ellipsoids, degrees or radians", "why_tests_cant": "There are infinitely many combinations of shapes; tests use arrays of one shape.", "anchors": ["src/pymap3d/ecef.py:ecef2geodetic", "src/pymap3d/ecef.py:geodetic2ecef", "src/pymap3d/enu.py:enu2geodetic", "src/pymap3d/enu.py:enu2aer", "src/pymap3d/ned.py:ned2geodetic", "src/pymap3d/aer.py:aer2geodetic", "src/pymap3d/aer.py:ecef2aer", "src/pymap3d/aer.py:geodetic2aer", "src/pymap3d/los.py:lookAtSpheroid"]}
{"id": "C82", "title": "Reckoning goes exactly as far as asked, and measuring back returns the range", "statement": "On every ellipsoid with flattening at most 1/150 the point that vreckon (any start more than 1e-10 rad from a pole, any azimuth, range 0 to 2.58 b) or geodesic_direct (also negative distances) returns is at the asked distance from the start, measured along the surface by the shortest way, within the accuracy of C69 and C67 (a nanometre for geodesic_direct on WGS84 up to 16 400 km). Hence vdist from the start to the vreckon point returns the range, and geodesic_inverse to the geodesic_direct point returns |s12| (63 nm). The points of track2 are equally spaced on the shortest way between the end points: the surface distance between points i and j is d (j-i)/(npts-1).", "quantifier": "all start points, azimuths and ranges up to about 148 degrees, all ellipsoids with flattening at most 1/150, all numbers of track points", "why_tests_cant": "The minimum is over all curves; no test enumerates them.", "anchors": ["src/pymap3d/vincenty.py:vreckon", "src/pymap3d/vincenty.py:track2", "src/pymap3d/vincenty.py:vdist", "src/pymap3d/karney.py:geodesic_direct", "src/pymap3d/karney.py:geodesic_inverse"]}
{"id": "C83", "title": "The meridian arc is the shortest way between its ends", "statement": "On every oblate ellipsoid the meridian is the shortest curve on the surface between two points with the same longitude (poles included), and no curve between points with other longitudes is shorter. Hence meridian_arc returns the distance along the surface with relative error at most n^4/40 + 100 n^5 (2e-12 on WGS84), every distance from vdist is at least meridian_arc between the latitudes (up to the accuracy of both), and along a meridian vdist, geodesic_inverse (to 62 nm + 2e-12 on WGS84) and meridian_arc agree.", "quantifier": "all pairs of latitudes and longitudes, all ellipsoids with squared eccentricity at most 1/2 (meridian_arc), flattening at most 1/150 (vdist), WGS84 (geodesic_inverse)", "why_tests_cant": "The claim compares with all curves on the surface.", "anchors": ["src/pymap3d/lox.py:meridian_arc", "src/pymap3d/vincenty.py:vdist", "src/pymap3d/karney.py:geodesic_inverse"]}
{"id": "C84", "title": "Missing data stay missing", "statement": "A NaN argument makes every result that depends on it NaN and no other result: which arguments each result depends on is listed for every conversion (for instance the z of geodetic2ecef does not depend on the longitude, the azimuth of enu2aer not on the up component), and results whose arguments are all numbers are what the call without the NaN returns. No function raises because of NaN: NaN passes the range checks on latitudes, altitudes and distances (vdist, vreckon, loxodrome_direct, lookAtSpheroid), and the iterations of vdist and vreckon end at once with NaN results. Positions computed from local coordinates, means of positions, n-vector means, distances and interpolations are NaN in all components as soon as one argument is. (Defect: ecef2geodetic of a point of the polar axis with z NaN answers with the latitude of the south pole, in every backend; only its altitude is NaN.)", "quantifier": "all combinations of NaN and numbers in all arguments, all ellipsoids, both units, all backends, in every arithmetic", "why_tests_cant": "There are exponentially many combinations of NaN arguments, each with infinitely many values of the others.", "anchors": ["src/pymap3d/ecef.py:geodetic2ecef", "src/pymap3d/ecef.py:ecef2geodetic", "src/pymap3d/enu.py:enu2aer", "src/pymap3d/aer.py:aer2ecef", "src/pymap3d/vincenty.py:vdist", "src/pymap3d/vincenty.py:vreckon", "src/pymap3d/lox.py:loxodrome_direct", "src/pymap3d/lox.py:loxodrome_inverse", "src/pymap3d/lox.py:meanm", "src/pymap3d/los.py:lookAtSpheroid", "src/pymap3d/nvector.py:nvector_interpolate", "src/pymap3d/latitude.py:geodetic2isometric", "src/pymap3d/body.py:ned2body"]}
{"id": "C85", "title": "Broadcasting computes element by element", "statement": "When the arguments are numbers and numpy arrays of different shapes and the call is accepted, the element of every result at a position is what the scalar call on the elements of the arguments at that position returns, where an argument with fewer axes, or with an axis of length 1, is repeated along the missing axes: a row of latitudes and a column of longitudes give the grid of all pairs. This holds for the coordinate conversions, including those that index with masks (ecef2geodetic, enu2aer and the functions built on them), whatever the uninitialised memory used for intermediate results contained; the latitudes returned by ecef2geodetic are found at the position without the axes of length 1. Which calls are accepted depends on the kinds and shapes only.", "quantifier": "all shapes, numbers of axes, positions and element values, all ellipsoids, both units, in every arithmetic", "why_tests_cant": "Shapes, and element values within each shape, are unbounded.", "anchors": ["src/pymap3d/ecef.py:ecef2geodetic", "src/pymap3d/ecef.py:geodetic2ecef", "src/pymap3d/enu.py:enu2aer", "src/pymap3d/enu.py:enu2geodetic", "src/pymap3d/aer.py:aer2geodetic", "src/pymap3d/aer.py:ecef2aer", "src/pymap3d/aer.py:geodetic2aer", "src/pymap3d/ned.py:ned2geodetic"]}
{"id": "C86", "title": "Julian date and sidereal time in double precision", "statement": "In IEEE double precision juliandate is within one rounding of the exact day count for every representable datetime (51 microseconds, 24 in this century), never decreases with time, and gives different dates, in the right order, to instants more than 104 (in this century 48) microseconds apart; utc_to_tt is exact to the microsecond. greenwichsrt returns IAU 1982 mean sidereal time of its argument within 7e-10 rad, and datetime2sidereal the apparent sidereal time of the IAU formulas at the exact instant, plus the longitude, within 2.6e-9 rad (1.6 cm on the equator), up to whole turns.", "quantifier": "all datetimes of years 1 to 9999 with any UTC offset (sidereal time: 1800 to 2200), all UT1-UTC up to a second, all longitudes, any arithmetic that rounds monotonically with relative error at most 2^-53 and is exact on quarters", "why_tests_cant": "There are 3e17 datetimes; the truncations inside the formula depend on each rounding.", "anchors": ["src/pymap3d/earth_orientation.py:juliandate", "src/pymap3d/earth_orientation.py:utc_to_tt", "src/pymap3d/earth_orientation.py:greenwich_mean_sidereal_time", "src/pymap3d/earth_orientation.py:greenwich_apparent_sidereal_time", "src/pymap3d/earth_orientation.py:nutation_short", "src/pymap3d/sidereal.py:datetime2sidereal", "src/pymap3d/sidereal.py:juliandate", "src/pymap3d/sidereal.py:greenwichsrt"]}
{"id": "C87", "title": "ECI conversions in double precision", "statement": "In IEEE double precision eci2ecef returns the point that the exact formulas (IAU 1976 precession, 1980 nutation with the code's four terms, 1982 sidereal time, and the code's polar motion) give at the exact instant, within 3.6e-9 of its distance from the origin (25 mm at 7000 km), and ecef2eci the point which those formulas carry to its argument. For every call that succeeds, whatever the time and the Earth orientation parameters, converting there and back returns the point, and the distance from the origin is kept, to 1e-13 of that distance.", "quantifier": "all points, all datetimes 1800 to 2200 with any UTC offset (round trip: all), UT1-UTC up to a second, polar motion up to 10000 arcseconds, any arithmetic that rounds monotonically with relative error at most 2^-53 and is exact on quarters", "why_tests_cant": "Rounding errors depend on every bit of the input and pass through nine matrix products.", "anchors": ["src/pymap3d/eci.py:eci2ecef", "src/pymap3d/eci.py:ecef2eci", "src/pymap3d/earth_orientation.py:eci_to_ecef_matrix"]}
{"id": "C88", "title": "Body frames and rotation matrices in double precision", "statement": "In IEEE double precision the conversions of vectors between the body frame and each of the four local frames are within 5e-14 of the length of the vector of the exact result, those between the body frame and ECEF (ecef2bodyv, body2ecefv) within 1e-13, and the matrices from ECEF to the local frames, and their transposes, within 4.5e-14. Positions (ecef2body, geodetic2body) are within 1360 roundings of the size of the ECEF coordinates plus 5e-14 of the distance from the observer. Going to the body frame and back, in either order, returns the vector, and lengths are kept, to 5e-14 (8e-14 from ECEF), for all angles whatever.", "quantifier": "all vectors and positions, all attitude angles, latitudes and longitudes of at most a full turn (round trips: all angles), degrees or radians, all four frames, all ellipsoids with a^2 <= 2 b^2, any arithmetic that rounds monotonically with relative error at most 2^-53 and is exact on quarters", "why_tests_cant": "Rounding errors depend on every bit of the input.", "anchors": ["src/pymap3d/body.py:ned2body", "src/pymap3d/body.py:body2ned", "src/pymap3d/body.py:enu2body", "src/pymap3d/body.py:sez2body", "src/pymap3d/body.py:nwu2body", "src/pymap3d/body.py:ecef2body", "src/pymap3d/body.py:ecef2bodyv", "src/pymap3d/body.py:body2ecefv", "src/pymap3d/body.py:geodetic2body", "src/pymap3d/frames.py:ecef2enu_matrix", "src/pymap3d/frames.py:ecef2ned_matrix", "src/pymap3d/frames.py:ecef2sez_matrix", "src/pymap3d/frames.py:ecef2nwu_matrix"]}
{"id": "C89", "title": "astropy present, absent or refused", "statement": "Refusing astropy, or not having it, gives the results of the built-in formulas in the ECI conversions of positions and states, sidereal time and anglesep. With astropy the ECI functions go between its celestial and terrestrial frames at the time given, in the right direction, azel2radec and radec2azel take and return degrees of its horizontal and equatorial coordinates at the place and time given, the Earth orientation parameters are ignored throughout, and converting there and back (also through geodetic coordinates and azimuth, elevation, range) returns the argument if astropy's own transformations undo each other. anglesep is the angle between the directions with and without astropy. Defect: azel2radec and radec2azel with force_non_astropy=True still take the sidereal time from astropy when it is installed and ignore UT1-UTC; the result is that of a machine without astropy iff the two sidereal times agree up to whole turns (the round trip still holds).", "quantifier": "every astropy (a parameter: any function with the signature called), installed or not, refused or not; all coordinates, times, nested lists of times, Earth orientation parameters", "why_tests_cant": "Tests run with one installed astropy or none and compare a few calls.", "anchors": ["src/pymap3d/eci.py:eci2ecef", "src/pymap3d/eci.py:ecef2eci", "src/pymap3d/eci.py:eci2ecef_state", "src/pymap3d/eci.py:ecef2eci_state", "src/pymap3d/sidereal.py:datetime2sidereal", "src/pymap3d/azelradec.py:azel2radec", "src/pymap3d/azelradec.py:radec2azel", "src/pymap3d/vallado.py:azel2radec", "src/pymap3d/vallado.py:radec2azel", "src/pymap3d/haversine.py:anglesep", "src/pymap3d/ecef.py:eci2geodetic", "src/pymap3d/ecef.py:geodetic2eci", "src/pymap3d/aer.py:eci2aer", "src/pymap3d/aer.py:aer2eci"]}
{"id": "C90", "title": "State vectors in double precision", "statement": "In IEEE double precision eci2ecef_state returns the Earth-fixed position of the moving point within 3.6e-9 of its distance from the origin and its Earth-fixed velocity, the time derivative of the position under the exact formulas (rotation, precession and nutation), within 7.2e-9 of the distance per second plus 3.6e-9 of the inertial velocity: 5 cm/s in a low orbit, because the Julian dates of the two instants half a second before and after are only known to tens of microseconds. ecef2eci_state returns, with the same accuracy, the inertial state whose uniform motion passes through the given Earth-fixed position with the given Earth-fixed velocity.", "quantifier": "all positions and velocities, all datetimes 1800 to 2200 with any UTC offset and not within half a second of a leap second, UT1-UTC up to a second, polar motion up to 10000 arcseconds, any arithmetic that rounds monotonically with relative error at most 2^-53 and is exact on quarters", "why_tests_cant": "Subtracting two nearly equal matrices amplifies roundings by an amount that depends on every bit of the time and the position.", "anchors": ["src/pymap3d/eci.py:eci2ecef_state", "src/pymap3d/eci.py:ecef2eci_state", "src/pymap3d/earth_orientation.py:eci_to_ecef_matrix_rate", "src/pymap3d/eci.py:_apply_state_rotation_scalar"]}
{"id": "C91", "title": "Angular separation in double precision", "statement": "In IEEE double precision anglesep without astropy, and anglesep_meeus, which is the same function, return the angle between the two directions within 5.3e-7 rad (0.11 arcsecond) for all coordinates up to a full turn, and within 1.2e-13 rad divided by the sine of the separation when that sine is at least 1e-5. Defect: the separation of any two points whose latitudes and longitudes differ by at most 9e-9 rad (2 mas) is exactly zero, because the haversine is computed as (1 - cos)/2.", "quantifier": "all pairs of directions, degrees or radians, any arithmetic that rounds monotonically with relative error at most 2^-53 and is exact on quarters (defect: IEEE binary64)", "why_tests_cant": "Rounding errors depend on every bit of the input and are amplified near coincident and antipodal points.", "anchors": ["src/pymap3d/haversine.py:anglesep", "src/pymap3d/haversine.py:anglesep_meeus", "src/pymap3d/haversine.py:haversine"]}
{"id": "C92", "title": "Radii of curvature and mean radii in floating point", "statement": "In every floating-point arithmetic the radii of curvature have relative errors of a bounded number of roundings: transverse 235, meridian 965, geocentric_radius 290, parallel 260 roundings of the transverse radius, the sphere of rsphere.curve 968 (mean) and 602 (norm); eqavol 45, biaxial 5 (mean) and 4 (norm), triaxial mean 7; for axes between 1 m and 1e9 m rectifying 181 and triaxial norm 85. In binary64 that is below a micrometre on the Earth. The squared eccentricity and the flattening stored by the constructor of Ellipsoid are within 57 and 5 roundings (relative to 1).", "quantifier": "all latitudes up to the poles, degrees or radians, the default ellipsoid and all constructed ones with a^2 <= 2 b^2, any arithmetic whose operations are right to a relative error (1e-6 at most)", "why_tests_cant": "Rounding errors depend on every bit of the input; the eccentricity is computed with cancellation and a square root.", "anchors": ["src/pymap3d/rcurve.py:transverse", "src/pymap3d/rcurve.py:meridian", "src/pymap3d/rcurve.py:parallel", "src/pymap3d/rcurve.py:geocentric_radius", "src/pymap3d/rsphere.py:curve", "src/pymap3d/rsphere.py:eqavol", "src/pymap3d/rsphere.py:biaxial", "src/pymap3d/rsphere.py:triaxial", "src/pymap3d/rsphere.py:rectifying", "src/pymap3d/ellipsoid.py:Ellipsoid"]}
{"id": "C93", "title": "Spherical coordinates near the poles in double precision", "statement": "Defect: in IEEE double precision geodetic2spherical gives every point within 9.9e-9 rad (6 cm) of the polar axis (north, on or above the ellipsoid) the latitude of the pole, and spherical2geodetic does the same for every ellipsoid object and positive radius, because the cosine of the latitude is computed as sqrt(1 - sin^2). The spherical latitude is then too large by the whole distance to the pole.", "quantifier": "all latitudes that close to the north pole, all longitudes, altitudes >= 0 or radii > 0, degrees or radians, all ellipsoids with a^2 <= 2 b^2, IEEE binary64 with a correctly rounded library", "why_tests_cant": "The loss happens for every latitude in an interval, whatever the other arguments.", "anchors": ["src/pymap3d/spherical.py:geodetic2spherical", "src/pymap3d/spherical.py:spherical2geodetic"]}
{"id": "C94", "title": "Geocentric latitude in floating point", "statement": "In every floating-point arithmetic geodetic2geocentric and geocentric2geodetic return the value of the exact formula to 1340 roundings of the latitude: the error in radians is at most 1340 u |lat|. In binary64 that is below 2 micrometres on the ground, and the relative accuracy is kept near the equator.", "quantifier": "all latitudes at least 13 roundings away from the poles, altitudes above -a/100, degrees or radians, the default ellipsoid and all constructed ones with a^2 <= 2 b^2, any arithmetic whose operations are right to a relative error (1e-6 at most)", "why_tests_cant": "The tangent is unbounded towards the poles; that its error is compressed again by the arctangent must be shown for every latitude.", "anchors": ["src/pymap3d/latitude.py:geodetic2geocentric", "src/pymap3d/latitude.py:geocentric2geodetic"]}
