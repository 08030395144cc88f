p("C61","Geodesic solver cache under threads",
  "For any number of threads calling the Karney functions with any interleaving (and concurrent cache clears), if no thread assigns to ellipsoid fields then every look-up returns the solver of its own ellipsoid; if another thread assigns to the ellipsoid between the key computation and the solver construction, the shared cache is left mapping the old parameters to a solver for the new ones, so later sequential calls on other ellipsoid objects are wrong.",
  "all numbers of threads and all schedules", "Schedules cannot be enumerated by unit tests.", S+"ellipsoid.py:get_cached_geodesic", S+"ellipsoid.py:_geodesic_cache")
p("C62","geodesic_inverse contract",
  "Azimuths lie in (-180,180]; the distance is invariant under exchanging the points, reflecting both in the equator or a meridian, and turning both about the axis (azimuths too), including whole turns; on a sphere the distance is R times the central angle and the azimuths are those of the great circle, for all non-polar points; at a pole the distance is wrong by up to R*1.5e-8.",
  "all pairs of points, all ellipsoids", CONT, S+"karney.py:geodesic_inverse", S+"karney.py:_Inverse")

p("C63","omitted optional arguments",
  "Calling any function without its optional arguments gives exactly the result of passing, in the documented positional order, the WGS84 ellipsoid for ell, True for deg, 'zyx' for sequence, 'ned' for frame, 'mean' for method, 100 for npts, 0 for alt, no radius, and zero for the Earth-orientation parameters.",
  "all inputs of all 140 functions with optional arguments, any arithmetic (also floating point)", "The default must be right for every input of every function; tests usually pass one or the other form.", S+"ecef.py", S+"enu.py", S+"body.py", S+"latitude.py", S+"karney.py", S+"eci.py")
p("C64","geodetic <-> local frame round trips",
  "geodetic -> ENU/NED/NWU/SEZ/DCA/body -> geodetic gives exactly the geodetic -> ECEF -> geodetic result whatever the observer, heading or attitude (WGS84, -12..100 km: longitude exact, latitude within 3.4e-13 rad, altitude within 2.2 micrometres); through AER the same up to a displacement below 1.8 mm caused by the millimetre trimming; local -> geodetic -> local returns within the ECEF round-trip bound for targets on or outside the ellipsoid.",
  "all targets, observers, headings, attitudes, ellipsoids", CONT, S+"enu.py:enu2geodetic", S+"enu.py:geodetic2enu", S+"ned.py", S+"nwu.py", S+"sez.py", S+"dca.py", S+"body.py", S+"aer.py:aer2geodetic")
p("C65","geographic mean",
  "meanm returns the geodetic latitude/longitude of the direction of the vector sum of the authalic directions of the points: the result lies in range, does not depend on the order of the points or on counting all of them the same number of times, is the point itself for a single point, and commutes with reflection in the equator and with rotation about the axis.",
  "all non-empty finite lists of points with non-zero vector sum, all ellipsoids", "Holds for lists of every length and every permutation.", S+"lox.py:meanm", S+"latitude.py:geodetic2authalic", S+"utils.py:sph2cart", S+"utils.py:cart2sph")
p("C66","geoc2geod accuracy",
  "For every point on or above the ellipsoid, geoc2geod applied to its geocentric latitude psi and distance rho = r*a gives the geodetic latitude plus f^2/(2r) sin(4 psi), up to 20 f^3: the series is exact on a sphere, at the equator and at the poles, but its second-order coefficient has the wrong sign, so that on WGS84 the error reaches 2.6e-4 degrees (29 m).",
  "all latitudes, altitudes >= 0, ellipsoids with f <= 1/10", CONT, S+"latitude.py:geoc2geod")
p("C67","geodesic_direct follows the geodesic",
  "geodesic_direct returns the end of the true geodesic: of the unit-speed curve on the ellipsoid whose acceleration is normal to the surface, starting at the given point with the given azimuth, after the given distance.  The geodesic continued from the returned point with the returned azimuth stays within n^7(90|s12| + 822 b) of it everywhere (n third flattening, b polar radius); on WGS84 the point is within 1 nm for distances up to 50000 km.",
  "all ellipsoids with f <= 1/10, all starts further than 1.5e-8 rad from a pole, azimuths and distances (also several turns, also negative)", CONT, S+"karney.py:geodesic_direct", S+"karney.py:_Direct", S+"karney.py:_A1m1f", S+"karney.py:_C1f", S+"karney.py:_C1pf", S+"karney.py:_A3f", S+"karney.py:_C3f")
p("C68","euler: radius of curvature between two points",
  "euler answers for all latitudes in [-90, 90] and raises ValueError otherwise; 1/r = cos^2(az)/meridian + sin^2(az)/transverse at the mean latitude with the azimuth vdist reports; r is exactly the radius of curvature, at the mean latitude, of the geodesic with that azimuth, lies between the two principal radii, and is the radius on a sphere.",
  "all pairs of points, all ellipsoids, both units", CONT, S+"rsphere.py:euler")
p("C69","vreckon and track2 follow the geodesic",
  "vreckon returns the end of the true geodesic (unit-speed curve on the ellipsoid with acceleration normal to the surface, leaving the given point in the given azimuth) within (0.175 + 6f) f^4 rng + 1.5e-12 b; on WGS84 within 0.025 mm per 1000 km plus 0.01 mm.  The same holds for every element of an array call and for every intermediate point of track2 (with vdist's azimuth and distance).",
  "all ellipsoids with f <= 1/10, all starts further than 1e-10 rad from a pole, all azimuths and ranges >= 0 except the one range returning NaN, arrays of any length", CONT, S+"vincenty.py:vreckon", S+"vincenty.py:track2")
p("C70","vdist solves the inverse geodesic problem",
  "For two points whose geodetic directions are at most 2.95 rad (169 degrees) apart, vdist returns a distance and an azimuth such that the one geodesic of the ellipsoid that leaves the first point in that azimuth passes, at that distance, within (0.175 + 6f) f^4 d + (2.6e-12 + 1.7e-10 f) b of the second point (WGS84: 0.025 mm per 1000 km plus 0.021 mm).  Hence vreckon with vdist's answer returns to the second point, and the last point of track2 is the second point, within twice that.",
  "all pairs of points further than 1e-10 rad from a pole, all ellipsoids with f <= 1/150; for f <= 1/10 all answers d <= 3b other than the non-converged fallback", "The iteration has to converge for every pair of points, and the answer has to be right for all of them.", S+"vincenty.py:vdist", S+"vincenty.py:vreckon", S+"vincenty.py:track2")
p("C71","eci2ecef is the published Earth rotation, with polar motion reversed",
  "Without polar motion, eci2ecef is exactly the IAU 1976 precession (Lieske), the leading terms of the nutation, and a turn by the IAU 1982 apparent sidereal time, at the UT1 and TT Julian dates of the given instant.  With polar motion xp, yp it applies the inverse of the IERS matrix R1(-yp)R2(-xp): the celestial pole is put on the opposite side of the Earth-fixed pole, so for xp <> 0 the result differs from the IERS reduction.",
  "all position vectors, all valid times, all polar-motion parameters", CONT, S+"earth_orientation.py:eci_to_ecef_matrix", S+"earth_orientation.py:polar_motion_matrix", S+"earth_orientation.py:precession_matrix", S+"earth_orientation.py:nutation_matrix", S+"eci.py:eci2ecef")
p("C72","built-in ellipsoids are the published ones",
  "Ellipsoid.from_name knows exactly 38 names.  Every figure of the Earth has the published equatorial radius and the polar radius of the published flattening to a millimetre (IERS 2003: 43 mm); wgs84_mean is the sphere of radius (2a+b)/3; the other bodies agree with the IAU radii within 0.13 per cent, except that the radii of Io are in kilometres and hence 1000 times too small.",
  "all names (every string)", "A wrong or missing entry is only seen by a test that uses that entry; the claim is about every string.", S+"ellipsoid.py:Ellipsoid.models", S+"ellipsoid.py:Ellipsoid.from_name")
p("C73","geodesic_inverse solves the inverse geodesic problem",
  "On every ellipsoid with flattening at most 1/150, for two points at most 2.05 rad (117 degrees; WGS84: 2.5 rad, 143 degrees) apart, the geodesic that leaves the first point with the first returned azimuth passes, at the returned distance and ever after, within a(260 n^7 + 2.5e-15) (WGS84: 20 nanometres) of the geodesic that leaves the second point with the second returned azimuth; the distance is at most half the equator.  Hence on WGS84 geodesic_direct with the answer of geodesic_inverse ends within 21 nm of the second point, and every point of geodesic_line lies on the geodesic between the ends.",
  "all pairs of points whose latitude has a cosine of at least 1.5e-8 and that are not both beyond 80.4 degrees on nearly opposite meridians", "The Newton iteration has to converge, and to the right azimuth, for every pair of points.", S+"karney.py:geodesic_inverse", S+"karney.py:_Inverse", S+"karney.py:_InverseStart", S+"karney.py:_Lambda12", S+"karney.py:_Lengths", S+"karney.py:geodesic_line")
p("C74","the returned distance is the shortest distance",
  "The distance returned by vdist and by geodesic_inverse is the length of the shortest way along the surface of the ellipsoid - the greatest lower bound over all curves on the surface joining the two points, not only over geodesics - up to the accuracy bounds: vdist within 1.001((0.175 + 6f) f^4 d + (2.6e-12 + 1.7e-10 f) b) (WGS84: 0.026 mm per 1000 km plus 0.022 mm), geodesic_inverse within 3.01 a(260 n^7 + 2.5e-15) (WGS84: 61 nanometres).",
  "all pairs of points up to 2.5 rad apart (vdist; WGS84 2.66 rad, 16970 km) or under the hypotheses of C73 (geodesic_inverse), all ellipsoids with f <= 1/150; all competing curves", "The claim compares the answer with infinitely many curves, for infinitely many pairs of points.", S+"vincenty.py:vdist", S+"karney.py:geodesic_inverse")
p("C75","distances behave like distances",
  "The distance along the surface is a metric, at least the straight distance, and lies between b and a times the angle of the reduced directions.  anglesep and anglesep_meeus times R are exactly the shortest distance on the sphere of radius R.  The distances of vdist and of geodesic_inverse obey the triangle inequality and are at least the straight distance, up to their accuracy bounds, and on WGS84 the two functions return the same distance within 0.026 mm per 1000 km plus 0.023 mm.",
  "all triples of points in the range of C74", "A law between three calls, for all triples of points.", S+"vincenty.py:vdist", S+"karney.py:geodesic_inverse", S+"haversine.py:anglesep", S+"haversine.py:anglesep_meeus")
p("C76","geodetic2ecef with rounded arithmetic",
  "When every operation is rounded as in floating-point arithmetic with unit roundoff u (basic operations and square root correctly rounded, library functions within four units in the last place), each coordinate returned by geodetic2ecef differs from the exact one by at most 164 u (a^2/b + |alt|); on WGS84 in double precision, up to 1000 km from the surface, by at most 0.14 micrometres.",
  "all such arithmetics with u <= 1e-6, all latitudes in [-90, 90], longitudes in [-360, 360], altitudes, all ellipsoids with a^2 <= 2 b^2, both units", "Rounding errors accumulate differently for every input.", S+"ecef.py:geodetic2ecef")
p("C77","local frames with rounded arithmetic",
  "In floating-point arithmetic with unit roundoff u the rotations uvw2enu and enu2uvw are exact up to 280 u times the length of the vector and there and back up to 1120 u; ecef2enu, geodetic2enu, enu2ecef, aer2enu and aer2ecef are exact up to a stated multiple (at most 780) of u times the size of the coordinates involved; enu2aer has relative error at most 17 u in range, 25 u in elevation and absolute error 18 u of a full turn in azimuth.  On WGS84 in double precision geodetic2enu is within 1.3 micrometres.",
  "all such arithmetics with u <= 1e-6, all vectors, observers and points; for enu2aer components not exactly at the 1 mm trimming limit", "Rounding errors accumulate differently for every input.", S+"enu.py:uvw2enu", S+"enu.py:enu2uvw", S+"ecef.py:ecef2enu", S+"enu.py:geodetic2enu", S+"enu.py:enu2ecef", S+"aer.py:aer2ecef", S+"enu.py:enu2aer", S+"enu.py:aer2enu")

p("C78","ecef2geodetic and the geodetic round trip with rounded arithmetic",
  "In floating-point arithmetic with unit roundoff u, on every ellipsoid with axes within 1 %, ecef2geodetic (scalars) applied to coordinates that already carry up to 190 roundings returns what exact arithmetic returns at the exact point up to 513 u radians of latitude, (423 r/rho + 51) u radians of longitude modulo full turns and 1108 u r of altitude, and gets the sign of the altitude right unless the point is within 693 u of the surface; geodetic2ecef followed by ecef2geodetic returns latitude, longitude and altitude within the error of the closed formula (C06) plus 513 u, (423/cos lat + 51) u and 1840 u (a + |alt|).  On WGS84 in double precision from 12 km below to 12 km above the surface: 5.8e-14 rad of latitude and 1.4 micrometres of altitude; up to 100 km 4e-13 rad and 3.5 micrometres.",
  "all arithmetics with relative rounding error at most u <= 1e-10 (binary64 included), all latitudes not within 500 u of a pole, all longitudes, all altitudes above minus a twentieth of the radius, degrees or radians", "Cancellation of rounding errors differs for every input; tests sample a few points.", S+"ecef.py:ecef2geodetic", S+"ecef.py:geodetic2ecef")

p("C79","Loxodromes are rhumb lines of the ellipsoid",
  "For two points off the polar caps, at most half a turn apart in longitude, a rhumb line of the ellipsoid (a curve on the surface whose velocity is everywhere the unit vector with one fixed azimuth) with exactly the course returned by loxodrome_inverse leads from the first point to the second, and its length is the returned distance up to the relative error n^4/40 + 100 n^5 + 3.2e-9 (n the third flattening; without the last term unless the course is within 1e-9 of east or west; WGS84: 2e-12 and 3.21e-9); the shortest way along the surface is no longer. The point returned by loxodrome_direct lies on the rhumb line with the given course from the given point, at a length equal to the range up to 1.02((n^4/40 + 100 n^5) range + 830 n^5 R/|cos course|) (WGS84: 2e-12 range + 0.08 mm/|cos course|); due east and west the longitude is exact and the latitude moves by at most 415 n^5. A rhumb line is determined by its first point and its course. (Defect: on WGS84 a course within 1e-7 degrees of east, but not within the code's 1e-9 threshold, moves the point by 0.003 degrees even for range 0.)",
  "all ellipsoids with a^2 <= 2 b^2, all points off the polar caps, all courses and ranges, degrees or radians", "The true curve is a solution of a differential equation; tests compare a few values of another program.", S+"lox.py:loxodrome_inverse", S+"lox.py:loxodrome_direct")

p("C80","Array calls act element by element",
  "Called with numpy arrays of one shape, every coordinate conversion returns at each index exactly what the call on the elements at that index returns, in every arithmetic: also the functions that select with boolean masks (ecef2geodetic and all conversions to geodetic, enu2aer and all conversions to azimuth/elevation, geodetic2isometric, departure, loxodrome_inverse, loxodrome_direct, lookAtSpheroid), whose scratch memory from empty_like never reaches the result; loxodrome_direct and lookAtSpheroid raise iff they would raise for one of the elements.",
  "all arrays of every shape and size, all element values, all ellipsoids, degrees or radians, any content of uninitialised memory", "Masks select a different set of elements for every input; a leak of uninitialised memory is not reproducible.", S+"ecef.py:ecef2geodetic", S+"enu.py:enu2aer", S+"latitude.py:geodetic2isometric", S+"lox.py:loxodrome_inverse", S+"lox.py:loxodrome_direct", S+"los.py:lookAtSpheroid")

p("C81","Mixing numbers and arrays in one call",
  "Which mixtures of Python numbers, numpy scalars and arrays (of different shapes) are accepted, with numpy installed: geodetic2aer and lookAtSpheroid accept every mixture that numpy can broadcast. ecef2geodetic accepts it iff z has the full shape and so have x and y together (if z is a Python number: iff all three are single values); hence enu2geodetic and ned2geodetic accept it iff north, up and the observer's latitude and altitude together have the full shape, aer2geodetic iff everything but the observer's longitude has, and converting back the result of geodetic2ecef works iff latitude and altitude together have the full shape (defects: an array of eastings with scalar northings raises, and so does the round trip of several longitudes at one latitude). enu2aer needs three arrays or three single values; ecef2aer raises for an array of z alone. The latitudes returned by ecef2geodetic lose the axes of length one, longitudes and altitudes keep them.",
  "all combinations of kinds and shapes of all arguments, any number of axes and any lengths, all ellipsoids, degrees or radians", "There are infinitely many combinations of shapes; tests use arrays of one shape.", S+"ecef.py:ecef2geodetic", S+"ecef.py:geodetic2ecef", S+"enu.py:enu2geodetic", S+"enu.py:enu2aer", S+"ned.py:ned2geodetic", S+"aer.py:aer2geodetic", S+"aer.py:ecef2aer", S+"aer.py:geodetic2aer", S+"los.py:lookAtSpheroid")

p("C82","Reckoning goes exactly as far as asked, and measuring back returns the range",
  "On every ellipsoid with flattening at most 1/150 the point that vreckon (any start more than 1e-10 rad from a pole, any azimuth, range 0 to 2.58 b) or geodesic_direct (also negative distances) returns is at the asked distance from the start, measured along the surface by the shortest way, within the accuracy of C69 and C67 (a nanometre for geodesic_direct on WGS84 up to 16 400 km). Hence vdist from the start to the vreckon point returns the range, and geodesic_inverse to the geodesic_direct point returns |s12| (63 nm). The points of track2 are equally spaced on the shortest way between the end points: the surface distance between points i and j is d (j-i)/(npts-1).",
  "all start points, azimuths and ranges up to about 148 degrees, all ellipsoids with flattening at most 1/150, all numbers of track points", "The minimum is over all curves; no test enumerates them.", S+"vincenty.py:vreckon", S+"vincenty.py:track2", S+"vincenty.py:vdist", S+"karney.py:geodesic_direct", S+"karney.py:geodesic_inverse")

p("C83","The meridian arc is the shortest way between its ends",
  "On every oblate ellipsoid the meridian is the shortest curve on the surface between two points with the same longitude (poles included), and no curve between points with other longitudes is shorter. Hence meridian_arc returns the distance along the surface with relative error at most n^4/40 + 100 n^5 (2e-12 on WGS84), every distance from vdist is at least meridian_arc between the latitudes (up to the accuracy of both), and along a meridian vdist, geodesic_inverse (to 62 nm + 2e-12 on WGS84) and meridian_arc agree.",
  "all pairs of latitudes and longitudes, all ellipsoids with squared eccentricity at most 1/2 (meridian_arc), flattening at most 1/150 (vdist), WGS84 (geodesic_inverse)", "The claim compares with all curves on the surface.", S+"lox.py:meridian_arc", S+"vincenty.py:vdist", S+"karney.py:geodesic_inverse")

p("C84","Missing data stay missing",
  "A NaN argument makes every result that depends on it NaN and no other result: which arguments each result depends on is listed for every conversion (for instance the z of geodetic2ecef does not depend on the longitude, the azimuth of enu2aer not on the up component), and results whose arguments are all numbers are what the call without the NaN returns. No function raises because of NaN: NaN passes the range checks on latitudes, altitudes and distances (vdist, vreckon, loxodrome_direct, lookAtSpheroid), and the iterations of vdist and vreckon end at once with NaN results. Positions computed from local coordinates, means of positions, n-vector means, distances and interpolations are NaN in all components as soon as one argument is. (Defect: ecef2geodetic of a point of the polar axis with z NaN answers with the latitude of the south pole, in every backend; only its altitude is NaN.)",
  "all combinations of NaN and numbers in all arguments, all ellipsoids, both units, all backends, in every arithmetic", "There are exponentially many combinations of NaN arguments, each with infinitely many values of the others.", S+"ecef.py:geodetic2ecef", S+"ecef.py:ecef2geodetic", S+"enu.py:enu2aer", S+"aer.py:aer2ecef", S+"vincenty.py:vdist", S+"vincenty.py:vreckon", S+"lox.py:loxodrome_direct", S+"lox.py:loxodrome_inverse", S+"lox.py:meanm", S+"los.py:lookAtSpheroid", S+"nvector.py:nvector_interpolate", S+"latitude.py:geodetic2isometric", S+"body.py:ned2body")

p("C85","Broadcasting computes element by element",
  "When the arguments are numbers and numpy arrays of different shapes and the call is accepted, the element of every result at a position is what the scalar call on the elements of the arguments at that position returns, where an argument with fewer axes, or with an axis of length 1, is repeated along the missing axes: a row of latitudes and a column of longitudes give the grid of all pairs. This holds for the coordinate conversions, including those that index with masks (ecef2geodetic, enu2aer and the functions built on them), whatever the uninitialised memory used for intermediate results contained; the latitudes returned by ecef2geodetic are found at the position without the axes of length 1. Which calls are accepted depends on the kinds and shapes only.",
  "all shapes, numbers of axes, positions and element values, all ellipsoids, both units, in every arithmetic", "Shapes, and element values within each shape, are unbounded.", S+"ecef.py:ecef2geodetic", S+"ecef.py:geodetic2ecef", S+"enu.py:enu2aer", S+"enu.py:enu2geodetic", S+"aer.py:aer2geodetic", S+"aer.py:ecef2aer", S+"aer.py:geodetic2aer", S+"ned.py:ned2geodetic")

p("C86","Julian date and sidereal time in double precision",
  "In IEEE double precision juliandate is within one rounding of the exact day count for every representable datetime (51 microseconds, 24 in this century), never decreases with time, and gives different dates, in the right order, to instants more than 104 (in this century 48) microseconds apart; utc_to_tt is exact to the microsecond. greenwichsrt returns IAU 1982 mean sidereal time of its argument within 7e-10 rad, and datetime2sidereal the apparent sidereal time of the IAU formulas at the exact instant, plus the longitude, within 2.6e-9 rad (1.6 cm on the equator), up to whole turns.",
  "all datetimes of years 1 to 9999 with any UTC offset (sidereal time: 1800 to 2200), all UT1-UTC up to a second, all longitudes, any arithmetic that rounds monotonically with relative error at most 2^-53 and is exact on quarters", "There are 3e17 datetimes; the truncations inside the formula depend on each rounding.", S+"earth_orientation.py:juliandate", S+"earth_orientation.py:utc_to_tt", S+"earth_orientation.py:greenwich_mean_sidereal_time", S+"earth_orientation.py:greenwich_apparent_sidereal_time", S+"earth_orientation.py:nutation_short", S+"sidereal.py:datetime2sidereal", S+"sidereal.py:juliandate", S+"sidereal.py:greenwichsrt")

p("C87","ECI conversions in double precision",
  "In IEEE double precision eci2ecef returns the point that the exact formulas (IAU 1976 precession, 1980 nutation with the code's four terms, 1982 sidereal time, and the code's polar motion) give at the exact instant, within 3.6e-9 of its distance from the origin (25 mm at 7000 km), and ecef2eci the point which those formulas carry to its argument. For every call that succeeds, whatever the time and the Earth orientation parameters, converting there and back returns the point, and the distance from the origin is kept, to 1e-13 of that distance.",
  "all points, all datetimes 1800 to 2200 with any UTC offset (round trip: all), UT1-UTC up to a second, polar motion up to 10000 arcseconds, any arithmetic that rounds monotonically with relative error at most 2^-53 and is exact on quarters", "Rounding errors depend on every bit of the input and pass through nine matrix products.", S+"eci.py:eci2ecef", S+"eci.py:ecef2eci", S+"earth_orientation.py:eci_to_ecef_matrix")

p("C88","Body frames and rotation matrices in double precision",
  "In IEEE double precision the conversions of vectors between the body frame and each of the four local frames are within 5e-14 of the length of the vector of the exact result, those between the body frame and ECEF (ecef2bodyv, body2ecefv) within 1e-13, and the matrices from ECEF to the local frames, and their transposes, within 4.5e-14. Positions (ecef2body, geodetic2body) are within 1360 roundings of the size of the ECEF coordinates plus 5e-14 of the distance from the observer. Going to the body frame and back, in either order, returns the vector, and lengths are kept, to 5e-14 (8e-14 from ECEF), for all angles whatever.",
  "all vectors and positions, all attitude angles, latitudes and longitudes of at most a full turn (round trips: all angles), degrees or radians, all four frames, all ellipsoids with a^2 <= 2 b^2, any arithmetic that rounds monotonically with relative error at most 2^-53 and is exact on quarters", "Rounding errors depend on every bit of the input.", S+"body.py:ned2body", S+"body.py:body2ned", S+"body.py:enu2body", S+"body.py:sez2body", S+"body.py:nwu2body", S+"body.py:ecef2body", S+"body.py:ecef2bodyv", S+"body.py:body2ecefv", S+"body.py:geodetic2body", S+"frames.py:ecef2enu_matrix", S+"frames.py:ecef2ned_matrix", S+"frames.py:ecef2sez_matrix", S+"frames.py:ecef2nwu_matrix")

p("C89","astropy present, absent or refused",
  "Refusing astropy, or not having it, gives the results of the built-in formulas in the ECI conversions of positions and states, sidereal time and anglesep. With astropy the ECI functions go between its celestial and terrestrial frames at the time given, in the right direction, azel2radec and radec2azel take and return degrees of its horizontal and equatorial coordinates at the place and time given, the Earth orientation parameters are ignored throughout, and converting there and back (also through geodetic coordinates and azimuth, elevation, range) returns the argument if astropy's own transformations undo each other. anglesep is the angle between the directions with and without astropy. Defect: azel2radec and radec2azel with force_non_astropy=True still take the sidereal time from astropy when it is installed and ignore UT1-UTC; the result is that of a machine without astropy iff the two sidereal times agree up to whole turns (the round trip still holds).",
  "every astropy (a parameter: any function with the signature called), installed or not, refused or not; all coordinates, times, nested lists of times, Earth orientation parameters", "Tests run with one installed astropy or none and compare a few calls.", S+"eci.py:eci2ecef", S+"eci.py:ecef2eci", S+"eci.py:eci2ecef_state", S+"eci.py:ecef2eci_state", S+"sidereal.py:datetime2sidereal", S+"azelradec.py:azel2radec", S+"azelradec.py:radec2azel", S+"vallado.py:azel2radec", S+"vallado.py:radec2azel", S+"haversine.py:anglesep", S+"ecef.py:eci2geodetic", S+"ecef.py:geodetic2eci", S+"aer.py:eci2aer", S+"aer.py:aer2eci")

p("C90","State vectors in double precision",
  "In IEEE double precision eci2ecef_state returns the Earth-fixed position of the moving point within 3.6e-9 of its distance from the origin and its Earth-fixed velocity, the time derivative of the position under the exact formulas (rotation, precession and nutation), within 7.2e-9 of the distance per second plus 3.6e-9 of the inertial velocity: 5 cm/s in a low orbit, because the Julian dates of the two instants half a second before and after are only known to tens of microseconds. ecef2eci_state returns, with the same accuracy, the inertial state whose uniform motion passes through the given Earth-fixed position with the given Earth-fixed velocity.",
  "all positions and velocities, all datetimes 1800 to 2200 with any UTC offset and not within half a second of a leap second, UT1-UTC up to a second, polar motion up to 10000 arcseconds, any arithmetic that rounds monotonically with relative error at most 2^-53 and is exact on quarters", "Subtracting two nearly equal matrices amplifies roundings by an amount that depends on every bit of the time and the position.", S+"eci.py:eci2ecef_state", S+"eci.py:ecef2eci_state", S+"earth_orientation.py:eci_to_ecef_matrix_rate", S+"eci.py:_apply_state_rotation_scalar")

p("C91","Angular separation in double precision",
  "In IEEE double precision anglesep without astropy, and anglesep_meeus, which is the same function, return the angle between the two directions within 5.3e-7 rad (0.11 arcsecond) for all coordinates up to a full turn, and within 1.2e-13 rad divided by the sine of the separation when that sine is at least 1e-5. Defect: the separation of any two points whose latitudes and longitudes differ by at most 9e-9 rad (2 mas) is exactly zero, because the haversine is computed as (1 - cos)/2.",
  "all pairs of directions, degrees or radians, any arithmetic that rounds monotonically with relative error at most 2^-53 and is exact on quarters (defect: IEEE binary64)", "Rounding errors depend on every bit of the input and are amplified near coincident and antipodal points.", S+"haversine.py:anglesep", S+"haversine.py:anglesep_meeus", S+"haversine.py:haversine")

p("C92","Radii of curvature and mean radii in floating point",
  "In every floating-point arithmetic the radii of curvature have relative errors of a bounded number of roundings: transverse 235, meridian 965, geocentric_radius 290, parallel 260 roundings of the transverse radius, the sphere of rsphere.curve 968 (mean) and 602 (norm); eqavol 45, biaxial 5 (mean) and 4 (norm), triaxial mean 7; for axes between 1 m and 1e9 m rectifying 181 and triaxial norm 85. In binary64 that is below a micrometre on the Earth. The squared eccentricity and the flattening stored by the constructor of Ellipsoid are within 57 and 5 roundings (relative to 1).",
  "all latitudes up to the poles, degrees or radians, the default ellipsoid and all constructed ones with a^2 <= 2 b^2, any arithmetic whose operations are right to a relative error (1e-6 at most)", "Rounding errors depend on every bit of the input; the eccentricity is computed with cancellation and a square root.", S+"rcurve.py:transverse", S+"rcurve.py:meridian", S+"rcurve.py:parallel", S+"rcurve.py:geocentric_radius", S+"rsphere.py:curve", S+"rsphere.py:eqavol", S+"rsphere.py:biaxial", S+"rsphere.py:triaxial", S+"rsphere.py:rectifying", S+"ellipsoid.py:Ellipsoid")

p("C93","Spherical coordinates near the poles in double precision",
  "Defect: in IEEE double precision geodetic2spherical gives every point within 9.9e-9 rad (6 cm) of the polar axis (north, on or above the ellipsoid) the latitude of the pole, and spherical2geodetic does the same for every ellipsoid object and positive radius, because the cosine of the latitude is computed as sqrt(1 - sin^2). The spherical latitude is then too large by the whole distance to the pole.",
  "all latitudes that close to the north pole, all longitudes, altitudes >= 0 or radii > 0, degrees or radians, all ellipsoids with a^2 <= 2 b^2, IEEE binary64 with a correctly rounded library", "The loss happens for every latitude in an interval, whatever the other arguments.", S+"spherical.py:geodetic2spherical", S+"spherical.py:spherical2geodetic")

p("C94","Geocentric latitude in floating point",
  "In every floating-point arithmetic geodetic2geocentric and geocentric2geodetic return the value of the exact formula to 1340 roundings of the latitude: the error in radians is at most 1340 u |lat|. In binary64 that is below 2 micrometres on the ground, and the relative accuracy is kept near the equator.",
  "all latitudes at least 13 roundings away from the poles, altitudes above -a/100, degrees or radians, the default ellipsoid and all constructed ones with a^2 <= 2 b^2, any arithmetic whose operations are right to a relative error (1e-6 at most)", "The tangent is unbounded towards the poles; that its error is compressed again by the arctangent must be shown for every latitude.", S+"latitude.py:geodetic2geocentric", S+"latitude.py:geocentric2geodetic")
