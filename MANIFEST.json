{
 "claims": [
  {
   "property": "C01",
   "status": "proved",
   "theorems": [
    "Pymap3d.geodetic2ecef_foot",
    "Pymap3d.geodetic2ecef_surface",
    "Pymap3d.geodetic2ecef_dist"
   ],
   "note": ""
  },
  {
   "property": "C02",
   "status": "proved",
   "theorems": [
    "Pymap3d.ecef2geodetic_geodetic2ecef_surface"
   ],
   "note": "All three backends; numpy-array backend outside its documented snapping tolerances (explicit hypothesis)."
  },
  {
   "property": "C03",
   "status": "proved",
   "theorems": [
    "Pymap3d.ecef2geodetic_geodetic2ecef_sphere"
   ],
   "note": ""
  },
  {
   "property": "C04",
   "status": "proved",
   "theorems": [
    "Pymap3d.ecef2geodetic_equator",
    "Pymap3d.ecef2geodetic_axis_numpy",
    "Pymap3d.ecef2geodetic_axis_scalar"
   ],
   "note": "Equatorial plane: every point. Axis, numpy arrays: exact. Axis, scalar backends: the code relies on tan(math.pi/2) being finite, so the theorem ranges over every value p < pi of the constant and bounds the deviation by (pi-p)/2."
  },
  {
   "property": "C05",
   "status": "proved",
   "theorems": [
    "Pymap3d.ecef2geodetic_range",
    "Pymap3d.ecef2geodetic_lon_direction",
    "Pymap3d.ecef2geodetic_alt_sign",
    "Pymap3d.ecef2geodetic_alt_dist",
    "Pymap3d.ecef2geodetic_alt_dist_numpy",
    "Pymap3d.ecef2geodetic_lat_sign"
   ],
   "note": ""
  },
  {
   "property": "C06",
   "status": "proved",
   "theorems": [
    "Pymap3d.ecef2geodetic_rotation",
    "Pymap3d.ecef2geodetic_reflect",
    "Pymap3d.ecef2geodetic_geodetic2ecef_lon",
    "Pymap3d.ecef2geodetic_geodetic2ecef_accuracy",
    "Pymap3d.ecef2geodetic_wgs84_accuracy",
    "Pymap3d.exists_geodetic",
    "Pymap3d.geodetic2ecef_ecef2geodetic_accuracy"
   ],
   "note": "Every backend, every regular ellipsoid with a^2 <= 2 b^2, altitude at least -b^2/(4a); explicit error bound latErr, with numbers for WGS84. Numpy arrays: outside the documented snapping tolerances (explicit hypothesis). The poles and the axis are C04."
  },
  {
   "property": "C07",
   "status": "proved",
   "theorems": [
    "Pymap3d.uvw2enu_components",
    "Pymap3d.enu2uvw_combination",
    "Pymap3d.frame_orthonormal",
    "Pymap3d.uvw2enu_enu2uvw",
    "Pymap3d.enu2uvw_uvw2enu",
    "Pymap3d.uvw2enu_dot",
    "Pymap3d.enu2uvw_dot",
    "Pymap3d.ecef2enuv_eq",
    "Pymap3d.enu2ecefv_eq"
   ],
   "note": ""
  },
  {
   "property": "C08",
   "status": "proved",
   "theorems": [
    "Pymap3d.enu2ecef_ecef2enu",
    "Pymap3d.ecef2enu_enu2ecef",
    "Pymap3d.ecef2enu_observer",
    "Pymap3d.ecef2enu_dist",
    "Pymap3d.enu2ecef_dist",
    "Pymap3d.geodetic2enu_eq",
    "Pymap3d.ecef2enu_above"
   ],
   "note": ""
  },
  {
   "property": "C09",
   "status": "proved",
   "theorems": [
    "Pymap3d.relabel_out",
    "Pymap3d.relabel_in"
   ],
   "note": "Stated for an arbitrary arithmetic F."
  },
  {
   "property": "C10",
   "status": "proved",
   "theorems": [
    "Pymap3d.published_matrices_rotation",
    "Pymap3d.published_matrices_transpose",
    "Pymap3d.ecef2enu_matrix_apply",
    "Pymap3d.ecef2ned_matrix_apply",
    "Pymap3d.ecef2nwu_matrix_apply",
    "Pymap3d.ecef2sez_matrix_apply",
    "Pymap3d.enu2ecef_matrix_apply",
    "Pymap3d.nwu2ecef_matrix_apply",
    "Pymap3d.sez2ecef_matrix_apply",
    "Pymap3d.ecef2enu_matrix_point"
   ],
   "note": ""
  },
  {
   "property": "C11",
   "status": "proved",
   "theorems": [
    "Pymap3d.body_bad_sequence",
    "Pymap3d.body_bad_frame",
    "Pymap3d.ned2body_axes",
    "Pymap3d.ned2body_zero",
    "Pymap3d.body_frame_independent",
    "Pymap3d.body_inverse_isometry",
    "Pymap3d.ecef2body_frames",
    "Pymap3d.body2ecef_ecef2body",
    "Pymap3d.geodetic2body_eq",
    "Pymap3d.body2geodetic_eq",
    "Pymap3d.ecef2bodyv_eq",
    "Pymap3d.body2ecefv_ecef2bodyv"
   ],
   "note": ""
  },
  {
   "property": "C12",
   "status": "proved",
   "theorems": [
    "Pymap3d.enu2aer_range",
    "Pymap3d.enu2aer_slant",
    "Pymap3d.aer2enu_norm",
    "Pymap3d.aer2enu_enu2aer",
    "Pymap3d.aer2enu_enu2aer_exact",
    "Pymap3d.enu2aer_aer2enu"
   ],
   "note": ""
  },
  {
   "property": "C13",
   "status": "proved",
   "theorems": [
    "Pymap3d.aer2ecef_dist",
    "Pymap3d.ecef2enu_aer2ecef",
    "Pymap3d.ecef2aer_aer2ecef",
    "Pymap3d.ecef2aer_slant",
    "Pymap3d.geodetic2aer_eq",
    "Pymap3d.aer2ecef_zenith"
   ],
   "note": ""
  },
  {
   "property": "C14",
   "status": "proved",
   "theorems": [
    "Pymap3d.enu2dca_components",
    "Pymap3d.dca2enu_enu2dca",
    "Pymap3d.enu2dca_dca2enu",
    "Pymap3d.enu2dca_dot",
    "Pymap3d.aer2dca_along",
    "Pymap3d.aer2dca_dca2aer"
   ],
   "note": ""
  },
  {
   "property": "C15",
   "status": "proved",
   "theorems": [
    "Pymap3d.ellipsoid_derived",
    "Pymap3d.ellipsoid_init_fails_iff",
    "Pymap3d.ellipsoid_overrides"
   ],
   "note": ""
  },
  {
   "property": "C16",
   "status": "proved",
   "theorems": [
    "Pymap3d.fromName_iff",
    "Pymap3d.fromName_entry",
    "Pymap3d.models_valid",
    "Pymap3d.fromName_wgs84",
    "Pymap3d.fromName_jupyter"
   ],
   "note": ""
  },
  {
   "property": "C17",
   "status": "proved",
   "theorems": [
    "Pymap3d.fromName_after_history",
    "Pymap3d.fromName_identical",
    "Pymap3d.fromName_after_clear",
    "Pymap3d.fromName_mutated"
   ],
   "note": "State machine over all histories of look-ups, constructions, field assignments and clears."
  },
  {
   "property": "C18",
   "status": "proved",
   "theorems": [
    "Pymap3d.getGeodesic_current",
    "Pymap3d.getGeodesic_default"
   ],
   "note": ""
  },
  {
   "property": "C19",
   "status": "proved",
   "theorems": [
    "Pymap3d.transverse_reaches_axis",
    "Pymap3d.parallel_axis_distance",
    "Pymap3d.meridian_speed",
    "Pymap3d.parallel_speed",
    "Pymap3d.curvature_bounds",
    "Pymap3d.meridian_eq_transverse_iff"
   ],
   "note": ""
  },
  {
   "property": "C20",
   "status": "proved",
   "theorems": [
    "Pymap3d.geocentric_radius_eq_norm",
    "Pymap3d.geocentric_radius_bounds"
   ],
   "note": ""
  },
  {
   "property": "C21",
   "status": "proved",
   "theorems": [
    "Pymap3d.rsphere_method",
    "Pymap3d.biaxial_bounds",
    "Pymap3d.triaxial_bounds",
    "Pymap3d.curve_bounds",
    "Pymap3d.rectifying_bounds",
    "Pymap3d.eqavol_volume",
    "Pymap3d.sphere_radii",
    "Pymap3d.authalic_area",
    "Pymap3d.rectifying_near",
    "Pymap3d.rectifying_radius_accuracy"
   ],
   "note": ""
  },
  {
   "property": "C22",
   "status": "proved",
   "theorems": [
    "Pymap3d.geodetic2parametric_surface",
    "Pymap3d.parametric_inverse",
    "Pymap3d.geodetic2parametric_odd",
    "Pymap3d.geodetic2parametric_strictMono",
    "Pymap3d.geodetic2parametric_le"
   ],
   "note": ""
  },
  {
   "property": "C23",
   "status": "proved",
   "theorems": [
    "Pymap3d.geodetic2geocentric_angle",
    "Pymap3d.geocentric2geodetic_inverse",
    "Pymap3d.geocentric2geodetic_not_inverse"
   ],
   "note": ""
  },
  {
   "property": "C24",
   "status": "proved",
   "theorems": [
    "Pymap3d.geodetic2isometric_cases",
    "Pymap3d.geodetic2isometric_odd",
    "Pymap3d.geodetic2isometric_conformal",
    "Pymap3d.geodetic2isometric_strictMono"
   ],
   "note": ""
  },
  {
   "property": "C25",
   "status": "proved",
   "theorems": [
    "Pymap3d.geodetic2conformal_gd",
    "Pymap3d.geodetic2conformal_isometric",
    "Pymap3d.geodetic2conformal_poles",
    "Pymap3d.geodetic2conformal_odd",
    "Pymap3d.geodetic2conformal_strictMono",
    "Pymap3d.geodetic2conformalArr_spec"
   ],
   "note": ""
  },
  {
   "property": "C26",
   "status": "proved",
   "theorems": [
    "Pymap3d.series_latitudes_symmetric",
    "Pymap3d.series_latitudes_sphere",
    "Pymap3d.models_moderatelyFlat",
    "Pymap3d.series_latitudes_strictMono",
    "Pymap3d.series_latitudes_range"
   ],
   "note": ""
  },
  {
   "property": "C27",
   "status": "proved",
   "theorems": [
    "Pymap3d.rectifying_round_trip",
    "Pymap3d.rectifying_round_trip_wgs84",
    "Pymap3d.geodetic2rectifying_true",
    "Pymap3d.geodetic2rectifying_accuracy",
    "Pymap3d.geodetic2rectifying_accuracy_wgs84",
    "Pymap3d.rectifying_near",
    "Pymap3d.rectifying_radius_accuracy",
    "Pymap3d.authalic_round_trip",
    "Pymap3d.authalic_round_trip_wgs84",
    "Pymap3d.geodetic2authalic_accuracy",
    "Pymap3d.geodetic2authalic_accuracy_wgs84",
    "Pymap3d.meridianPoint_spec",
    "Pymap3d.zone_meridian_sphere"
   ],
   "note": "True lengths and areas are integrals over the meridian ellipse (Spec/Meridian.lean); polynomial remainders are generated by tools/series and checked by the kernel."
  },
  {
   "property": "C28",
   "status": "proved",
   "theorems": [
    "Pymap3d.geodetic2spherical_spec"
   ],
   "note": ""
  },
  {
   "property": "C29",
   "status": "proved",
   "theorems": [
    "Pymap3d.spherical2geodetic_geodetic2spherical",
    "Pymap3d.spherical2geodetic_geodetic2spherical'",
    "Pymap3d.geodetic2spherical_spherical2geodetic",
    "Pymap3d.outsideEvolute_of_radius"
   ],
   "note": ""
  },
  {
   "property": "C30",
   "status": "proved",
   "theorems": [
    "Pymap3d.anglesep_angle",
    "Pymap3d.anglesep_metric"
   ],
   "note": ""
  },
  {
   "property": "C31",
   "status": "proved",
   "theorems": [
    "Pymap3d.geodetic2nvector_normal",
    "Pymap3d.nvector2geodetic_geodetic2nvector",
    "Pymap3d.geodetic2nvector_nvector2geodetic",
    "Pymap3d.nvector2ecef_geodetic2nvector",
    "Pymap3d.ecef2nvector_surface"
   ],
   "note": ""
  },
  {
   "property": "C32",
   "status": "proved",
   "theorems": [
    "Pymap3d.nvector_distance_angle",
    "Pymap3d.nvector_distance_metric",
    "Pymap3d.nvector_distance_anglesep"
   ],
   "note": ""
  },
  {
   "property": "C33",
   "status": "proved",
   "theorems": [
    "Pymap3d.nvector_interpolate_spec",
    "Pymap3d.nvector_interpolate_ends"
   ],
   "note": ""
  },
  {
   "property": "C34",
   "status": "proved",
   "theorems": [
    "Pymap3d.nvector_mean_spec",
    "Pymap3d.nvector_mean_perm",
    "Pymap3d.nvector_mean_replicate",
    "Pymap3d.cross_track_dist",
    "Pymap3d.cross_track_sign",
    "Pymap3d.nvector_intersection_spec"
   ],
   "note": ""
  },
  {
   "property": "C35",
   "status": "proved",
   "theorems": [
    "Pymap3d.lookAtSpheroid_hit",
    "Pymap3d.lookAtSpheroid_miss",
    "Pymap3d.lookAtSpheroid_first",
    "Pymap3d.lookAtSpheroid_nadir",
    "Pymap3d.lookAtSpheroid_negative",
    "Pymap3d.lookAtSpheroid_total"
   ],
   "note": ""
  },
  {
   "property": "C36",
   "status": "proved",
   "theorems": [
    "Pymap3d.lookAtSpheroid_hit",
    "Pymap3d.lookAtSpheroid_ignores_ell"
   ],
   "note": ""
  },
  {
   "property": "C37",
   "status": "proved",
   "theorems": [
    "Pymap3d.meridian_arc_symm",
    "Pymap3d.meridian_arc_eq_zero_iff",
    "Pymap3d.meridian_arc_additive",
    "Pymap3d.meridian_dist_spec",
    "Pymap3d.meridian_arc_sphere",
    "Pymap3d.meridian_arc_accuracy",
    "Pymap3d.meridian_arc_accuracy_wgs84"
   ],
   "note": ""
  },
  {
   "property": "C38",
   "status": "proved",
   "theorems": [
    "Pymap3d.departure_shortest",
    "Pymap3d.departure_symm",
    "Pymap3d.departure_periodic",
    "Pymap3d.departure_range"
   ],
   "note": ""
  },
  {
   "property": "C39",
   "status": "proved",
   "theorems": [
    "Pymap3d.loxodrome_direct_errors",
    "Pymap3d.loxodrome_direct_course",
    "Pymap3d.loxodrome_direct_east_west_sphere",
    "Pymap3d.loxodrome_inverse_direct",
    "Pymap3d.loxodrome_inverse_direct_sphere",
    "Pymap3d.loxodrome_inverse_parallel",
    "Pymap3d.loxodrome_inverse_antimeridian",
    "Pymap3d.loxodrome_inverse_pole"
   ],
   "note": "Constant course proved on every moderately flat ellipsoid; the antimeridian inconsistency of loxodrome_inverse is proved with a witness."
  },
  {
   "property": "C40",
   "status": "proved",
   "theorems": [
    "Pymap3d.vdist_terminates",
    "Pymap3d.vdist_error_iff",
    "Pymap3d.vdist_azimuth_range",
    "Pymap3d.vdist_longitude",
    "Pymap3d.vdist_symmetric",
    "Pymap3d.vdist_nonneg_eq_zero_iff",
    "Pymap3d.vdist_sphere",
    "Pymap3d.vdist_equator",
    "Pymap3d.vdistLoopArr_exits",
    "Pymap3d.vdistArr_error_iff",
    "Pymap3d.vdistArr_singleton",
    "Pymap3d.vdistArr_coincident",
    "Pymap3d.vdistArr_antipodal"
   ],
   "note": "Termination for every arithmetic F and every input; the last two are defects of the array path."
  },
  {
   "property": "C41",
   "status": "proved",
   "theorems": [
    "Pymap3d.vreckon_terminates",
    "Pymap3d.vreckon_error_iff",
    "Pymap3d.vreckon_nan_iff",
    "Pymap3d.vreckon_nan_exists",
    "Pymap3d.vreckon_destination",
    "Pymap3d.vreckon_clairaut",
    "Pymap3d.vreckon_sphere",
    "Pymap3d.vreckon_zero_range",
    "Pymap3d.vreckon_equator",
    "Pymap3d.vreckon_symmetry"
   ],
   "note": "On ellipsoids with a^2 <= 2 b^2."
  },
  {
   "property": "C42",
   "status": "proved",
   "theorems": [
    "Pymap3d.track2_small",
    "Pymap3d.track2_result",
    "Pymap3d.track2_first",
    "Pymap3d.track2_sphere"
   ],
   "note": ""
  },
  {
   "property": "C43",
   "status": "proved",
   "theorems": [
    "Pymap3d.angNormalize_mem",
    "Pymap3d.angNormalize_congr",
    "Pymap3d.angNormalize_unique",
    "Pymap3d.angNormalize_periodic",
    "Pymap3d.angRound_real",
    "Pymap3d.angDiff_real",
    "Pymap3d.sumError_real",
    "Pymap3d.sincosd_real",
    "Pymap3d.atan2d_real",
    "Pymap3d.atan2d_mem",
    "Pymap3d.norm2_unit",
    "Pymap3d.polyval_real",
    "Pymap3d.sinCosSeries_sin",
    "Pymap3d.sinCosSeries_cos"
   ],
   "note": "Series evaluator for coefficient lists of every length."
  },
  {
   "property": "C44",
   "status": "proved",
   "theorems": [
    "Pymap3d.geodesic_direct_range",
    "Pymap3d.geodesic_direct_shift",
    "Pymap3d.geodesic_direct_destination",
    "Pymap3d.geodesic_direct_clairaut",
    "Pymap3d.geodesic_direct_at_pole",
    "Pymap3d.geodesic_direct_sphere",
    "Pymap3d.geodesic_direct_sphere_zero",
    "Pymap3d.geodesic_direct_equator"
   ],
   "note": "Starts with cos(lat) >= 1.5e-8; the arc length on the auxiliary sphere is the one the code's series computes."
  },
  {
   "property": "C45",
   "status": "proved",
   "theorems": [
    "Pymap3d.geodesic_line_length",
    "Pymap3d.geodesic_line_point",
    "Pymap3d.geodesic_line_one",
    "Pymap3d.geodesic_line_sphere"
   ],
   "note": ""
  },
  {
   "property": "C46",
   "status": "proved",
   "theorems": [
    "Pymap3d.geodesic_area_error",
    "Pymap3d.geodesic_area_perimeter",
    "Pymap3d.geodesic_area_turns",
    "Pymap3d.kG_c2_area",
    "Pymap3d.geodesic_area_hemisphere",
    "Pymap3d.geodesic_area_degenerate",
    "Pymap3d.geodesic_area_radians"
   ],
   "note": "The last three are defects, on every ellipsoid with f <= 1/3."
  },
  {
   "property": "C47",
   "status": "proved",
   "theorems": [
    "Pymap3d.juliandate_exact",
    "Pymap3d.juliandate_j2000",
    "Pymap3d.juliandate_total",
    "Pymap3d.juliandate_lt_iff",
    "Pymap3d.juliandate_nextDay",
    "Pymap3d.juliandate_elementwise"
   ],
   "note": "Against a day count defined by summing month and year lengths; every representable instant."
  },
  {
   "property": "C48",
   "status": "proved",
   "theorems": [
    "Pymap3d.leapSeconds_exact",
    "Pymap3d.leapSeconds_mono",
    "Pymap3d.leapTable_tail",
    "Pymap3d.taiMinusUtc_mono",
    "Pymap3d.taiMinusUtc_range",
    "Pymap3d.utcToTt_exact",
    "Pymap3d.tt_strictMono",
    "Pymap3d.utcWithOffset_spec",
    "Pymap3d.timedeltaSeconds_close",
    "Pymap3d.timedeltaSeconds_exact"
   ],
   "note": ""
  },
  {
   "property": "C49",
   "status": "proved",
   "theorems": [
    "Pymap3d.datetime2sidereal_range",
    "Pymap3d.datetime2sidereal_longitude",
    "Pymap3d.datetime2sidereal_elementwise",
    "Pymap3d.greenwichsrt_elementwise",
    "Pymap3d.gmst_range",
    "Pymap3d.gmst_j2000",
    "Pymap3d.gmst_daily_gain",
    "Pymap3d.era_spec",
    "Pymap3d.nutation_bounds",
    "Pymap3d.gast_close",
    "Pymap3d.datetime2siderealVallado_ok"
   ],
   "note": ""
  },
  {
   "property": "C50",
   "status": "proved",
   "theorems": [
    "Pymap3d.ecef2eci_eci2ecef",
    "Pymap3d.eci2ecef_ecef2eci",
    "Pymap3d.eci_total",
    "Pymap3d.eci_rigid",
    "Pymap3d.eci2ecef_ut1"
   ],
   "note": ""
  },
  {
   "property": "C51",
   "status": "proved",
   "theorems": [
    "Pymap3d.ecef2eciState_eci2ecefState",
    "Pymap3d.eci2ecefState_ecef2eciState",
    "Pymap3d.state_position",
    "Pymap3d.state_velocity",
    "Pymap3d.state_total",
    "Pymap3d.state_total_inside",
    "Pymap3d.state_velocity_derivative",
    "Pymap3d.state_velocity_derivative_inverse"
   ],
   "note": ""
  },
  {
   "property": "C52",
   "status": "proved",
   "theorems": [
    "Pymap3d.geodetic2eci_ignores_eop",
    "Pymap3d.eci2geodetic_geodetic2eci",
    "Pymap3d.eci2geodetic_geodetic2eci_surface",
    "Pymap3d.eci2geodetic_geodetic2eci_polar",
    "Pymap3d.eci2geodetic_geodetic2eci_fails",
    "Pymap3d.eci2aer_aer2eci",
    "Pymap3d.eci2aer_aer2eci_wgs84",
    "Pymap3d.eci2aer_ignores_ellipsoid"
   ],
   "note": "The independence, the exact round trips, and the two defects with witnesses."
  },
  {
   "property": "C53",
   "status": "proved",
   "theorems": [
    "Pymap3d.azel2radec_spec",
    "Pymap3d.radec2azel_spec",
    "Pymap3d.radec2azel_azel2radec",
    "Pymap3d.azel2radec_radec2azel",
    "Pymap3d.azelradec_lat_error",
    "Pymap3d.azelradec_dispatch"
   ],
   "note": "Directions away from the polar axis resp. zenith/nadir, |lat| < 90; astropy path not modelled."
  },
  {
   "property": "C54",
   "status": "proved",
   "theorems": [
    "Pymap3d.ensureUtc_spec",
    "Pymap3d.ensureUtc_congr",
    "Pymap3d.time_functions_congr",
    "Pymap3d.str2dt_spec"
   ],
   "note": "datetime.fromisoformat is a parameter."
  },
  {
   "property": "C55",
   "status": "proved",
   "theorems": [
    "Pymap3d.nvector_bool_radius",
    "Pymap3d.coerce_list",
    "Pymap3d.coerce_list_bad",
    "Pymap3d.coerce_word",
    "Pymap3d.coerce_datetime",
    "Pymap3d.callKwargs_spec",
    "Pymap3d.callKwargs_names",
    "Pymap3d.kwarg_ell",
    "Pymap3d.kwarg_bool",
    "Pymap3d.kwarg_text",
    "Pymap3d.kwarg_missing",
    "Pymap3d.cli_defaults",
    "Pymap3d.cli_none_default",
    "Pymap3d.exportTable_none",
    "Pymap3d.registerCommands_spec",
    "Pymap3d.command_select",
    "Pymap3d.exportTable_dests",
    "Pymap3d.cliEllipsoid_spec",
    "Pymap3d.cli_geodetic2ecef",
    "Pymap3d.cli_geodetic2ecef_default",
    "Pymap3d.cli_nvector_distance",
    "Pymap3d.cli_nvector_cross_track",
    "Pymap3d.cli_nvector_distance_default_fails",
    "Pymap3d.nvectorCrossTrack_text_fails",
    "Pymap3d.json_output",
    "Pymap3d.isDatetimeParam_iff",
    "Pymap3d.json_needs_conversion"
   ],
   "note": "Python's float/str/strip/fromisoformat are parameters; argparse token recognition is trusted; the export table is generated from the signatures read as text."
  },
  {
   "property": "C56",
   "status": "proved",
   "theorems": [
    "Pymap3d.exec_frame",
    "Pymap3d.mutation_table",
    "Pymap3d.ecef2geodetic_frame",
    "Pymap3d.enu2aerHeap_arrays",
    "Pymap3d.enu2aerHeap_mismatch",
    "Pymap3d.enu2aerHeap_scalars",
    "Pymap3d.enu2aerHeap_mixed",
    "Pymap3d.ned2aerHeap_arrays",
    "Pymap3d.sez2aerHeap_arrays",
    "Pymap3d.nwu2aerHeap_arrays",
    "Pymap3d.vincenty_deg_pure",
    "Pymap3d.vdistHeap_rejected",
    "Pymap3d.vdistHeap_deg",
    "Pymap3d.vdistHeap_rad",
    "Pymap3d.vreckonHeap_deg",
    "Pymap3d.vreckonHeap_rad_value",
    "Pymap3d.vreckonHeap_rad",
    "Pymap3d.zeroTrim_eq_self_iff",
    "Pymap3d.polarAdjust_eq_self_iff",
    "Pymap3d.polarAdjust_idem",
    "Pymap3d.enu2aer_modifies_caller",
    "Pymap3d.vdist_modifies_caller"
   ],
   "note": "Soundness of the alias analysis for all executions; the statement skeletons of the functions with in-place assignments are transcribed by hand. Exact heap models for the functions that do modify arguments."
  },
  {
   "property": "C57",
   "status": "proved",
   "theorems": [
    "Pymap3d.units_LocalFrames",
    "Pymap3d.units_Aer",
    "Pymap3d.units_Body",
    "Pymap3d.units_Latitude",
    "Pymap3d.lookAtSpheroid_units",
    "Pymap3d.nvector_units",
    "Pymap3d.loxodrome_inverse_units"
   ],
   "note": "First four groups hold bit-for-bit in every arithmetic F."
  },
  {
   "property": "C58",
   "status": "proved",
   "theorems": [
    "Pymap3d.default_ellipsoid_LocalFrames",
    "Pymap3d.default_ellipsoid_Aer",
    "Pymap3d.default_ellipsoid_Body",
    "Pymap3d.default_ellipsoid_Latitude",
    "Pymap3d.default_ellipsoid_rest"
   ],
   "note": ""
  },
  {
   "property": "C59",
   "status": "proved",
   "theorems": [
    "Pymap3d.pol2cart_cart2pol",
    "Pymap3d.cart2pol_range",
    "Pymap3d.cart2pol_pol2cart",
    "Pymap3d.sph2cart_cart2sph",
    "Pymap3d.cart2sph_range",
    "Pymap3d.cart2sph_sph2cart"
   ],
   "note": ""
  },
  {
   "property": "C60",
   "status": "proved",
   "theorems": [
    "Pymap3d.eci_elementwise",
    "Pymap3d.eci_array_errors",
    "Pymap3d.eci_no_numpy",
    "Pymap3d.state_array_fails",
    "Pymap3d.state_array_single",
    "Pymap3d.state_array_empty",
    "Pymap3d.state_no_numpy"
   ],
   "note": "Every arithmetic F, every shape."
  },
  {
   "property": "C61",
   "status": "proved",
   "theorems": [
    "Pymap3d.geodesic_cache_threads",
    "Pymap3d.geodesic_cache_race"
   ],
   "note": "Thread model: interleaving at the granularity of the five source steps of get_cached_geodesic."
  },
  {
   "property": "C62",
   "status": "proved",
   "theorems": [
    "Pymap3d.geodesic_inverse_range",
    "Pymap3d.geodesic_inverse_swap",
    "Pymap3d.geodesic_inverse_mirror_lat",
    "Pymap3d.geodesic_inverse_lon",
    "Pymap3d.geodesic_inverse_coincident",
    "Pymap3d.geodesic_inverse_sphere",
    "Pymap3d.geodesic_inverse_equator",
    "Pymap3d.geodesic_inverse_pole",
    "Pymap3d.geodesic_inverse_pole_short"
   ],
   "note": "The last two are the error at a pole."
  },
  {
   "property": "C63",
   "status": "proved",
   "theorems": [
    "Pymap3d.stateNp_defaults",
    "Pymap3d.defaults_ecef",
    "Pymap3d.defaults_enu",
    "Pymap3d.defaults_ned",
    "Pymap3d.defaults_nwu",
    "Pymap3d.defaults_sez",
    "Pymap3d.defaults_aer",
    "Pymap3d.defaults_dca",
    "Pymap3d.defaults_body",
    "Pymap3d.defaults_rcurve",
    "Pymap3d.defaults_rsphere",
    "Pymap3d.defaults_latitude",
    "Pymap3d.defaults_haversine",
    "Pymap3d.defaults_spherical",
    "Pymap3d.defaults_nvector",
    "Pymap3d.defaults_los",
    "Pymap3d.defaults_lox",
    "Pymap3d.defaults_vincenty",
    "Pymap3d.defaults_karney",
    "Pymap3d.defaults_eci",
    "Pymap3d.fromName_wgs84"
   ],
   "note": "Statements generated from the Python signatures by tools/defaults.py, for every arithmetic F."
  },
  {
   "property": "C64",
   "status": "proved",
   "theorems": [
    "Pymap3d.local_geodetic_roundtrip",
    "Pymap3d.aer_geodetic_roundtrip",
    "Pymap3d.local_geodetic_wgs84",
    "Pymap3d.geodetic_local_roundtrip"
   ],
   "note": "Scalar backends for the numeric bounds; the exact equality holds for every backend."
  },
  {
   "property": "C65",
   "status": "proved",
   "theorems": [
    "Pymap3d.meanm_real",
    "Pymap3d.meanm_direction",
    "Pymap3d.meanm_range",
    "Pymap3d.meanm_perm",
    "Pymap3d.meanm_repeat",
    "Pymap3d.meanm_single",
    "Pymap3d.meanm_reflect",
    "Pymap3d.meanm_rotate"
   ],
   "note": "Lists of every length; numpy's mean is exact addition and division."
  },
  {
   "property": "C66",
   "status": "proved",
   "theorems": [
    "Pymap3d.geoc2geod_error",
    "Pymap3d.geoc2geod_error_le",
    "Pymap3d.geoc2geod_sphere",
    "Pymap3d.geoc2geod_fixed",
    "Pymap3d.geoc2geod_odd",
    "Pymap3d.geodetic_sub_geocentric_le",
    "Pymap3d.geoc2geod_wgs84_defect"
   ],
   "note": "The last is the defect."
  },
  {
   "property": "C67",
   "status": "proved",
   "theorems": [
    "Pymap3d.geodesic_exists_unique",
    "Pymap3d.geodesic_direct_true",
    "Pymap3d.geodesic_direct_point",
    "Pymap3d.geodesic_direct_wgs84",
    "Pymap3d.epsOf_spec"
   ],
   "note": "Existence and uniqueness of geodesics proved from the definition (Spec/Geodesic); at an end exactly on a pole the point theorem allows 3e-8 a."
  },
  {
   "property": "C68",
   "status": "proved",
   "theorems": [
    "Pymap3d.geodesic_curvature",
    "Pymap3d.euler_spec",
    "Pymap3d.euler_error_iff",
    "Pymap3d.euler_bounds",
    "Pymap3d.euler_is_curvature",
    "Pymap3d.euler_sphere"
   ],
   "note": "Euler's formula is derived from the definition of a geodesic, not assumed."
  },
  {
   "property": "C69",
   "status": "proved",
   "theorems": [
    "Pymap3d.vreckon_true",
    "Pymap3d.vreckon_true_wgs84",
    "Pymap3d.vreckonArr_true",
    "Pymap3d.track2_true",
    "Pymap3d.vLen_close",
    "Pymap3d.vTurn_close"
   ],
   "note": "Vincenty's truncated series A, B, C compared with the integrals of the geodesic derived from Spec/Geodesic."
  },
  {
   "property": "C70",
   "status": "proved",
   "theorems": [
    "Pymap3d.vdist_solves",
    "Pymap3d.vdist_solves_dist",
    "Pymap3d.vdist_solves_wgs84",
    "Pymap3d.vdist_true",
    "Pymap3d.vdist_vreckon",
    "Pymap3d.track2_reaches",
    "Pymap3d.vIter_converges"
   ],
   "note": "Convergence is proved by contraction (factor 0.4); nearly antipodal pairs, where Vincenty's method is known to fail, are outside the hypotheses."
  },
  {
   "property": "C71",
   "status": "proved",
   "theorems": [
    "Pymap3d.eci2ecef_iau",
    "Pymap3d.eci2ecef_polar_motion",
    "Pymap3d.polar_motion_sign",
    "Pymap3d.polar_motion_wrong",
    "Pymap3d.polar_motion_is_inverse"
   ],
   "note": "The specification Spec/EarthRotation.lean is written from the published coefficients; nutation is the four-term series of the code's documentation."
  },
  {
   "property": "C72",
   "status": "proved",
   "theorems": [
    "Pymap3d.models_names",
    "Pymap3d.models_earth",
    "Pymap3d.models_bodies",
    "Pymap3d.models_mean",
    "Pymap3d.models_io"
   ],
   "note": "The published values are in Spec/Bodies.lean."
  },
  {
   "property": "C73",
   "status": "proved",
   "theorems": [
    "Pymap3d.geodesic_inverse_solves",
    "Pymap3d.geodesic_inverse_solves_wgs84",
    "Pymap3d.geodesic_inverse_solves_of",
    "Pymap3d.geodesic_inverse_direct",
    "Pymap3d.geodesic_line_true",
    "Pymap3d.astroid_solves"
   ],
   "note": "Covers start value, Newton iteration with bracketing (converges within the 31 permitted iterations), meridional and equatorial special cases and the length series. Pairs further apart than the stated arc, poles (C62) and pairs near one pole on opposite meridians are outside the hypotheses."
  },
  {
   "property": "C74",
   "status": "proved",
   "theorems": [
    "Pymap3d.vdist_shortest",
    "Pymap3d.vdist_shortest_dist",
    "Pymap3d.vdist_shortest_wgs84",
    "Pymap3d.geodesic_inverse_shortest",
    "Pymap3d.geodesic_inverse_shortest_wgs84",
    "Pymap3d.Short.geodesic_shortest",
    "Pymap3d.Short.geodesic_near_shortest"
   ],
   "note": "Short.geodesic_shortest: a geodesic up to the length b(b/a)B is shortest among all Lipschitz curves on the surface (a calibration: the length of the geodesic to a point, as a function of the point, has slope at most one along every curve). Pairs further apart than stated are outside the hypotheses; beyond the cut locus the claim is false of any geodesic."
  },
  {
   "property": "C75",
   "status": "proved",
   "theorems": [
    "Pymap3d.surfaceDist_metric",
    "Pymap3d.surfaceDist_bounds",
    "Pymap3d.anglesep_shortest",
    "Pymap3d.vdist_triangle",
    "Pymap3d.vdist_geodesic_inverse_agree",
    "Pymap3d.geodesic_inverse_triangle"
   ],
   "note": "Consequences of C74 and of the metric laws of surfaceDist."
  },
  {
   "property": "C76",
   "status": "proved",
   "theorems": [
    "Pymap3d.geodetic2ecef_float",
    "Pymap3d.geodetic2ecef_float_wgs84"
   ],
   "note": "Arithmetic model Py/FloatArith.lean: every rounding of relative error at most u; unbounded exponent range. binary64 is an instance."
  },
  {
   "property": "C77",
   "status": "proved",
   "theorems": [
    "Pymap3d.uvw2enu_float",
    "Pymap3d.enu_uvw_round_trip_float",
    "Pymap3d.ecef2enu_float",
    "Pymap3d.geodetic2enu_float",
    "Pymap3d.enu2ecef_float",
    "Pymap3d.enu_ecef_round_trip_float",
    "Pymap3d.aer2ecef_float",
    "Pymap3d.geodetic2enu_float_wgs84",
    "Pymap3d.enu2aer_float"
   ],
   "note": "Same arithmetic model."
  },
  {
   "property": "C78",
   "status": "proved",
   "theorems": [
    "Pymap3d.ecef2geodetic_float",
    "Pymap3d.geodetic_round_trip_float",
    "Pymap3d.geodetic_round_trip_float_wgs84"
   ],
   "note": "Same arithmetic model as C76. Scalar backends. The square root of a negative number is 0 in the arithmetic model (Python would raise); it could only arise for axes that differ by a rounding."
  },
  {
   "property": "C79",
   "status": "proved",
   "theorems": [
    "Pymap3d.loxodrome_inverse_rhumb",
    "Pymap3d.loxodrome_inverse_near_parallel",
    "Pymap3d.loxodrome_inverse_all",
    "Pymap3d.loxodrome_inverse_wgs84",
    "Pymap3d.loxodrome_direct_rhumb",
    "Pymap3d.loxodrome_direct_parallel",
    "Pymap3d.loxodrome_direct_wgs84",
    "Pymap3d.rhumb_unique",
    "Pymap3d.loxodrome_direct_zero_range_moves"
   ],
   "note": "Rhumb lines are specified as curves with constant azimuth in Spec/Rhumb.lean, independently of the code. The last theorem is a defect: courses between 1e-9 and about 1e-7 of east or west."
  },
  {
   "property": "C80",
   "status": "proved",
   "theorems": [
    "Pymap3d.ecef2geodetic_elementwise",
    "Pymap3d.enu2aer_elementwise",
    "Pymap3d.composites_elementwise",
    "Pymap3d.geodetic2isometric_elementwise",
    "Pymap3d.departure_elementwise",
    "Pymap3d.loxodrome_inverse_elementwise",
    "Pymap3d.loxodrome_direct_elementwise",
    "Pymap3d.lookAtSpheroid_elementwise",
    "Pymap3d.local_frames_elementwise",
    "Pymap3d.aer_dca_elementwise",
    "Pymap3d.latitudes_elementwise"
   ],
   "note": "Arrays are functions from an arbitrary index type (Py/Arr.lean); code with masks is transcribed at array level in Model/ArrayCode.lean. vdist, vreckon and the ECI states, which do not act element by element, are C40, C41, C60. float64 arrays."
  },
  {
   "property": "C81",
   "status": "proved",
   "theorems": [
    "Pymap3d.ecef2geodetic_mixed",
    "Pymap3d.geodetic_round_trip_mixed",
    "Pymap3d.enu2geodetic_mixed",
    "Pymap3d.aer2geodetic_mixed",
    "Pymap3d.enu2aer_mixed",
    "Pymap3d.geodetic2aer_mixed",
    "Pymap3d.ecef2aer_mixed",
    "Pymap3d.lookAtSpheroid_mixed",
    "Pymap3d.ecef2geodetic_shapes",
    "Pymap3d.ecef2geodetic_latitude_shape",
    "Pymap3d.geodetic2ecef_kinds"
   ],
   "note": "The polymorphic transcription is read at the type of kinds and shapes (Py/Kind.lean, numpy broadcasting); code that indexes with masks is transcribed at that level in Model/Mixed.lean. numpy's rules for indexing numbers and arrays with masks are part of the model. Arrays without axes are not modelled (numpy turns them into scalars)."
  },
  {
   "property": "C82",
   "status": "proved",
   "theorems": [
    "Pymap3d.vreckon_distance",
    "Pymap3d.vreckon_vdist",
    "Pymap3d.track2_spacing",
    "Pymap3d.geodesic_direct_distance",
    "Pymap3d.geodesic_direct_distance_wgs84",
    "Pymap3d.geodesic_direct_inverse"
   ],
   "note": "surfaceDist is the infimum over all curves on the surface (Spec/Shortest.lean)."
  },
  {
   "property": "C83",
   "status": "proved",
   "theorems": [
    "Pymap3d.surfaceDist_meridian",
    "Pymap3d.meridianLength_le_surfaceDist",
    "Pymap3d.meridian_arc_shortest",
    "Pymap3d.vdist_meridian_arc",
    "Pymap3d.geodesic_inverse_meridian_arc"
   ],
   "note": ""
  },
  {
   "property": "C84",
   "status": "proved",
   "theorems": [
    "Pymap3d.nan_ecef2geodetic",
    "Pymap3d.nan_ecef2geodetic_axis",
    "Pymap3d.num_ecef2geodetic",
    "Pymap3d.nan_to_geodetic",
    "Pymap3d.nan_lookAtSpheroid",
    "Pymap3d.nan_vdist",
    "Pymap3d.nan_vreckon",
    "Pymap3d.nan_geodetic2isometric",
    "Pymap3d.nan_geodetic2conformal",
    "Pymap3d.nan_nvector_mean",
    "Pymap3d.nan_meanm",
    "Pymap3d.nan_nvector_distance",
    "Pymap3d.nan_nvector_interpolate",
    "Pymap3d.nan_loxodrome_direct",
    "Pymap3d.nan_loxodrome_inverse",
    "Pymap3d.nan_azel_radec",
    "Pymap3d.nan_body",
    "Pymap3d.nan_geodetic2ecef",
    "Pymap3d.num_geodetic2ecef",
    "Pymap3d.nan_uvw2enu",
    "Pymap3d.num_uvw2enu",
    "Pymap3d.nan_ecef2enuv",
    "Pymap3d.num_ecef2enuv",
    "Pymap3d.nan_enu2uvw",
    "Pymap3d.num_enu2uvw",
    "Pymap3d.nan_enu2ecefv",
    "Pymap3d.num_enu2ecefv",
    "Pymap3d.nan_ecef2enu",
    "Pymap3d.num_ecef2enu",
    "Pymap3d.nan_enu2ecef",
    "Pymap3d.num_enu2ecef",
    "Pymap3d.nan_geodetic2enu",
    "Pymap3d.num_geodetic2enu",
    "Pymap3d.nan_enu2aer",
    "Pymap3d.num_enu2aer",
    "Pymap3d.nan_aer2enu",
    "Pymap3d.num_aer2enu",
    "Pymap3d.nan_ecef2aer",
    "Pymap3d.num_ecef2aer",
    "Pymap3d.nan_geodetic2aer",
    "Pymap3d.num_geodetic2aer",
    "Pymap3d.nan_aer2ecef",
    "Pymap3d.num_aer2ecef",
    "Pymap3d.nan_aer2ned",
    "Pymap3d.num_aer2ned",
    "Pymap3d.nan_ned2aer",
    "Pymap3d.num_ned2aer",
    "Pymap3d.nan_ned2ecef",
    "Pymap3d.num_ned2ecef",
    "Pymap3d.nan_ecef2ned",
    "Pymap3d.num_ecef2ned",
    "Pymap3d.nan_geodetic2ned",
    "Pymap3d.num_geodetic2ned",
    "Pymap3d.nan_ecef2nedv",
    "Pymap3d.num_ecef2nedv",
    "Pymap3d.nan_aer2nwu",
    "Pymap3d.num_aer2nwu",
    "Pymap3d.nan_nwu2aer",
    "Pymap3d.num_nwu2aer",
    "Pymap3d.nan_nwu2ecef",
    "Pymap3d.num_nwu2ecef",
    "Pymap3d.nan_nwu2ecefv",
    "Pymap3d.num_nwu2ecefv",
    "Pymap3d.nan_ecef2nwu",
    "Pymap3d.num_ecef2nwu",
    "Pymap3d.nan_ecef2nwuv",
    "Pymap3d.num_ecef2nwuv",
    "Pymap3d.nan_geodetic2nwu",
    "Pymap3d.num_geodetic2nwu",
    "Pymap3d.nan_aer2sez",
    "Pymap3d.num_aer2sez",
    "Pymap3d.nan_sez2aer",
    "Pymap3d.num_sez2aer",
    "Pymap3d.nan_sez2ecef",
    "Pymap3d.num_sez2ecef",
    "Pymap3d.nan_sez2ecefv",
    "Pymap3d.num_sez2ecefv",
    "Pymap3d.nan_ecef2sez",
    "Pymap3d.num_ecef2sez",
    "Pymap3d.nan_ecef2sezv",
    "Pymap3d.num_ecef2sezv",
    "Pymap3d.nan_geodetic2sez",
    "Pymap3d.num_geodetic2sez",
    "Pymap3d.nan_enu2dca",
    "Pymap3d.num_enu2dca",
    "Pymap3d.nan_dca2enu",
    "Pymap3d.num_dca2enu",
    "Pymap3d.nan_ned2dca",
    "Pymap3d.num_ned2dca",
    "Pymap3d.nan_dca2ned",
    "Pymap3d.num_dca2ned",
    "Pymap3d.nan_ecef2dca",
    "Pymap3d.num_ecef2dca",
    "Pymap3d.nan_dca2ecef",
    "Pymap3d.num_dca2ecef",
    "Pymap3d.nan_geodetic2dca",
    "Pymap3d.num_geodetic2dca",
    "Pymap3d.nan_aer2dca",
    "Pymap3d.num_aer2dca",
    "Pymap3d.nan_dca2aer",
    "Pymap3d.num_dca2aer",
    "Pymap3d.nan_geocentric_radius",
    "Pymap3d.num_geocentric_radius",
    "Pymap3d.nan_transverse",
    "Pymap3d.num_transverse",
    "Pymap3d.nan_parallel",
    "Pymap3d.num_parallel",
    "Pymap3d.nan_meridian",
    "Pymap3d.num_meridian",
    "Pymap3d.nan_geoc2geod",
    "Pymap3d.num_geoc2geod",
    "Pymap3d.nan_geodetic2geocentric",
    "Pymap3d.num_geodetic2geocentric",
    "Pymap3d.nan_geocentric2geodetic",
    "Pymap3d.num_geocentric2geodetic",
    "Pymap3d.nan_conformal2geodetic",
    "Pymap3d.num_conformal2geodetic",
    "Pymap3d.nan_isometric2geodetic",
    "Pymap3d.num_isometric2geodetic",
    "Pymap3d.nan_geodetic2rectifying",
    "Pymap3d.num_geodetic2rectifying",
    "Pymap3d.nan_rectifying2geodetic",
    "Pymap3d.num_rectifying2geodetic",
    "Pymap3d.nan_geodetic2authalic",
    "Pymap3d.num_geodetic2authalic",
    "Pymap3d.nan_authalic2geodetic",
    "Pymap3d.num_authalic2geodetic",
    "Pymap3d.nan_geodetic2parametric",
    "Pymap3d.num_geodetic2parametric",
    "Pymap3d.nan_parametric2geodetic",
    "Pymap3d.num_parametric2geodetic",
    "Pymap3d.nan_geodetic2spherical",
    "Pymap3d.num_geodetic2spherical",
    "Pymap3d.nan_spherical2geodetic",
    "Pymap3d.num_spherical2geodetic",
    "Pymap3d.nan_haversine",
    "Pymap3d.num_haversine",
    "Pymap3d.nan_anglesep_meeus",
    "Pymap3d.num_anglesep_meeus",
    "Pymap3d.nan_anglesep",
    "Pymap3d.num_anglesep",
    "Pymap3d.nan_geodetic2nvector",
    "Pymap3d.num_geodetic2nvector",
    "Pymap3d.nan_nvector2geodetic",
    "Pymap3d.num_nvector2geodetic",
    "Pymap3d.nan_nvector2ecef",
    "Pymap3d.num_nvector2ecef",
    "Pymap3d.nan_meridian_arc",
    "Pymap3d.num_meridian_arc",
    "Pymap3d.nan_meridian_dist",
    "Pymap3d.num_meridian_dist",
    "Pymap3d.nan_departure",
    "Pymap3d.num_departure",
    "Pymap3d.nan_cart2pol",
    "Pymap3d.num_cart2pol",
    "Pymap3d.nan_pol2cart",
    "Pymap3d.num_pol2cart",
    "Pymap3d.nan_cart2sph",
    "Pymap3d.num_cart2sph",
    "Pymap3d.nan_sph2cart",
    "Pymap3d.num_sph2cart"
   ],
   "note": "The transcriptions are read at the type of numbers with NaN (Py/Nan.lean). Infinite arguments are not covered (C's hypot(inf, nan) is inf), nor are the Karney functions and the ECI conversions; rhumb lines: points outside the polar caps. The generated theorems are written by tools/nan.py."
  },
  {
   "property": "C85",
   "status": "proved",
   "theorems": [
    "Pymap3d.bc_ecef2geodetic",
    "Pymap3d.bc_ecef2geodetic_accepts",
    "Pymap3d.bc_enu2aer",
    "Pymap3d.bc_enu2aer_accepts",
    "Pymap3d.bc_enu2geodetic",
    "Pymap3d.bc_aer2geodetic",
    "Pymap3d.bc_ecef2aer",
    "Pymap3d.bc_geodetic2aer",
    "Pymap3d.bc_composed_accept",
    "Pymap3d.bc_geodetic2ecef",
    "Pymap3d.bc_uvw2enu",
    "Pymap3d.bc_ecef2enuv",
    "Pymap3d.bc_enu2uvw",
    "Pymap3d.bc_enu2ecefv",
    "Pymap3d.bc_ecef2enu",
    "Pymap3d.bc_enu2ecef",
    "Pymap3d.bc_geodetic2enu",
    "Pymap3d.bc_aer2enu",
    "Pymap3d.bc_aer2ecef",
    "Pymap3d.bc_aer2ned",
    "Pymap3d.bc_ned2ecef",
    "Pymap3d.bc_ecef2ned",
    "Pymap3d.bc_geodetic2ned",
    "Pymap3d.bc_ecef2nedv",
    "Pymap3d.bc_aer2nwu",
    "Pymap3d.bc_nwu2ecef",
    "Pymap3d.bc_nwu2ecefv",
    "Pymap3d.bc_ecef2nwu",
    "Pymap3d.bc_ecef2nwuv",
    "Pymap3d.bc_geodetic2nwu",
    "Pymap3d.bc_aer2sez",
    "Pymap3d.bc_sez2ecef",
    "Pymap3d.bc_sez2ecefv",
    "Pymap3d.bc_ecef2sez",
    "Pymap3d.bc_ecef2sezv",
    "Pymap3d.bc_geodetic2sez",
    "Pymap3d.bc_enu2dca",
    "Pymap3d.bc_dca2enu",
    "Pymap3d.bc_ned2dca",
    "Pymap3d.bc_dca2ned",
    "Pymap3d.bc_ecef2dca",
    "Pymap3d.bc_dca2ecef",
    "Pymap3d.bc_geodetic2dca",
    "Pymap3d.bc_aer2dca",
    "Pymap3d.bc_geocentric_radius",
    "Pymap3d.bc_transverse",
    "Pymap3d.bc_parallel",
    "Pymap3d.bc_meridian",
    "Pymap3d.bc_geoc2geod",
    "Pymap3d.bc_geodetic2geocentric",
    "Pymap3d.bc_geocentric2geodetic",
    "Pymap3d.bc_conformal2geodetic",
    "Pymap3d.bc_isometric2geodetic",
    "Pymap3d.bc_geodetic2rectifying",
    "Pymap3d.bc_rectifying2geodetic",
    "Pymap3d.bc_geodetic2authalic",
    "Pymap3d.bc_authalic2geodetic",
    "Pymap3d.bc_geodetic2parametric",
    "Pymap3d.bc_parametric2geodetic",
    "Pymap3d.bc_geodetic2spherical",
    "Pymap3d.bc_spherical2geodetic",
    "Pymap3d.bc_haversine",
    "Pymap3d.bc_anglesep_meeus",
    "Pymap3d.bc_anglesep",
    "Pymap3d.bc_geodetic2nvector",
    "Pymap3d.bc_nvector2geodetic",
    "Pymap3d.bc_nvector2ecef",
    "Pymap3d.bc_meridian_arc",
    "Pymap3d.bc_meridian_dist",
    "Pymap3d.bc_cart2pol",
    "Pymap3d.bc_pol2cart",
    "Pymap3d.bc_cart2sph",
    "Pymap3d.bc_sph2cart"
   ],
   "note": "Values and shapes together (Py/ND.lean); the functions without value-dependent branches are the polymorphic transcriptions read at that type (generated, Props/BroadcastElem.lean), the mask code is transcribed in Model/MixedVal.lean."
  },
  {
   "property": "C86",
   "status": "proved",
   "theorems": [
    "Pymap3d.juliandate_float",
    "Pymap3d.juliandate_float_mono",
    "Pymap3d.juliandate_float_resolution",
    "Pymap3d.utcToTt_float",
    "Pymap3d.greenwichsrt_float",
    "Pymap3d.datetime2sidereal_float"
   ],
   "note": ""
  },
  {
   "property": "C87",
   "status": "proved",
   "theorems": [
    "Pymap3d.eci2ecef_float",
    "Pymap3d.ecef2eci_float",
    "Pymap3d.eci_roundtrip_float"
   ],
   "note": ""
  },
  {
   "property": "C88",
   "status": "proved",
   "theorems": [
    "Pymap3d.body_float",
    "Pymap3d.body_roundtrip_float",
    "Pymap3d.local_matrix_float",
    "Pymap3d.ecef2bodyv_float",
    "Pymap3d.ecef2bodyv_roundtrip_float",
    "Pymap3d.position2body_float"
   ],
   "note": "LocalFrame.toBody and fromBody name the eight library functions by frame (Props/FloatBody.lean)."
  },
  {
   "property": "C89",
   "status": "proved",
   "theorems": [
    "Pymap3d.astropy_refused",
    "Pymap3d.astropy_absent",
    "Pymap3d.astropy_ignores_eop",
    "Pymap3d.eci_astropy_frames",
    "Pymap3d.radec_astropy_sky",
    "Pymap3d.eci_astropy_roundtrip",
    "Pymap3d.geodetic_aer_astropy_roundtrip",
    "Pymap3d.radec_astropy_roundtrip",
    "Pymap3d.anglesep_astropy",
    "Pymap3d.radec_refused_ignores_ut1",
    "Pymap3d.azel2radec_refused_iff",
    "Pymap3d.radec_refused_roundtrip"
   ],
   "note": "astropy is a parameter of the model; what a theorem needs of it is a hypothesis (Astropy.Frames, Sky, Inverse, SkyInverse, Separation). The defect is proved as it stands."
  },
  {
   "property": "C90",
   "status": "proved",
   "theorems": [
    "Pymap3d.eci2ecef_state_float",
    "Pymap3d.ecef2eci_state_float"
   ],
   "note": "The exact velocity is the derivative of movingAt (Props/FloatState.lean), the Earth-fixed coordinates of a uniformly moving point under the published formulas. Scalar states."
  },
  {
   "property": "C91",
   "status": "proved",
   "theorems": [
    "Pymap3d.anglesep_float",
    "Pymap3d.haversine_vanishes",
    "Pymap3d.anglesep_small_vanishes"
   ],
   "note": "Square roots of negative numbers are 0 and arcsines of numbers above 1 are pi/2 in the arithmetic model; Python raises or returns NaN there."
  },
  {
   "property": "C92",
   "status": "proved",
   "theorems": [
    "Pymap3d.rcurve_float",
    "Pymap3d.rsphere_float",
    "Pymap3d.rsphere_power_float",
    "Pymap3d.sameShape_ofArgs",
    "Pymap3d.sameShape_none"
   ],
   "note": "authalic (logarithm, small eccentricities) and euler are not in this claim."
  },
  {
   "property": "C93",
   "status": "proved",
   "theorems": [
    "Pymap3d.geodetic2spherical_pole",
    "Pymap3d.spherical2geodetic_pole",
    "Pymap3d.geodetic2spherical_pole_error",
    "Pymap3d.rnd64_rnd64"
   ],
   "note": "Rounding to 53 bits with unbounded exponent. The claim states the behaviour of the code as it is."
  },
  {
   "property": "C94",
   "status": "proved",
   "theorems": [
    "Pymap3d.geocentric_latitude_float"
   ],
   "note": "Same arithmetic model as C76."
  }
 ]
}