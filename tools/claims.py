c("C01","proved","geodetic2ecef_foot geodetic2ecef_surface geodetic2ecef_dist")
c("C02","proved","ecef2geodetic_geodetic2ecef_surface","All three backends; numpy-array backend outside its documented snapping tolerances (explicit hypothesis).")
c("C03","proved","ecef2geodetic_geodetic2ecef_sphere")
c("C04","proved","ecef2geodetic_equator ecef2geodetic_axis_numpy ecef2geodetic_axis_scalar","Equatorial plane: every point. Axis, numpy arrays: exact. Axis, scalar backends: the code relies on tan(math.pi/2) being finite, so the theorem ranges over every value p < pi of the constant and bounds the deviation by (pi-p)/2.")
c("C05","proved","ecef2geodetic_range ecef2geodetic_lon_direction ecef2geodetic_alt_sign ecef2geodetic_alt_dist ecef2geodetic_alt_dist_numpy ecef2geodetic_lat_sign")
c("C06","proved","ecef2geodetic_rotation ecef2geodetic_reflect ecef2geodetic_geodetic2ecef_lon ecef2geodetic_geodetic2ecef_accuracy ecef2geodetic_wgs84_accuracy exists_geodetic geodetic2ecef_ecef2geodetic_accuracy","Every backend, every regular ellipsoid with a^2 <= 2 b^2, altitude at least -b^2/(4a); explicit error bound latErr, with numbers for WGS84. Numpy arrays: outside the documented snapping tolerances (explicit hypothesis). The poles and the axis are C04.")
c("C07","proved","uvw2enu_components enu2uvw_combination frame_orthonormal uvw2enu_enu2uvw enu2uvw_uvw2enu uvw2enu_dot enu2uvw_dot ecef2enuv_eq enu2ecefv_eq")
c("C08","proved","enu2ecef_ecef2enu ecef2enu_enu2ecef ecef2enu_observer ecef2enu_dist enu2ecef_dist geodetic2enu_eq ecef2enu_above")
c("C09","proved","relabel_out relabel_in","Stated for an arbitrary arithmetic F.")
c("C10","proved","published_matrices_rotation published_matrices_transpose ecef2enu_matrix_apply ecef2ned_matrix_apply ecef2nwu_matrix_apply ecef2sez_matrix_apply enu2ecef_matrix_apply nwu2ecef_matrix_apply sez2ecef_matrix_apply ecef2enu_matrix_point")
c("C11","proved","body_bad_sequence body_bad_frame ned2body_axes ned2body_zero body_frame_independent body_inverse_isometry ecef2body_frames body2ecef_ecef2body geodetic2body_eq body2geodetic_eq ecef2bodyv_eq body2ecefv_ecef2bodyv")
c("C12","proved","enu2aer_range enu2aer_slant aer2enu_norm aer2enu_enu2aer aer2enu_enu2aer_exact enu2aer_aer2enu")
c("C13","proved","aer2ecef_dist ecef2enu_aer2ecef ecef2aer_aer2ecef ecef2aer_slant geodetic2aer_eq aer2ecef_zenith")
c("C14","proved","enu2dca_components dca2enu_enu2dca enu2dca_dca2enu enu2dca_dot aer2dca_along aer2dca_dca2aer")
c("C20","proved","geocentric_radius_eq_norm geocentric_radius_bounds")
c("C59","proved","pol2cart_cart2pol cart2pol_range cart2pol_pol2cart sph2cart_cart2sph cart2sph_range cart2sph_sph2cart")
c("C15","proved","ellipsoid_derived ellipsoid_init_fails_iff ellipsoid_overrides")
c("C16","proved","fromName_iff fromName_entry models_valid fromName_wgs84 fromName_jupyter")
c("C19","proved","transverse_reaches_axis parallel_axis_distance meridian_speed parallel_speed curvature_bounds meridian_eq_transverse_iff")
c("C21","proved","rsphere_method biaxial_bounds triaxial_bounds curve_bounds rectifying_bounds eqavol_volume sphere_radii authalic_area rectifying_near rectifying_radius_accuracy")
c("C22","proved","geodetic2parametric_surface parametric_inverse geodetic2parametric_odd geodetic2parametric_strictMono geodetic2parametric_le")
c("C23","proved","geodetic2geocentric_angle geocentric2geodetic_inverse geocentric2geodetic_not_inverse")
c("C24","proved","geodetic2isometric_cases geodetic2isometric_odd geodetic2isometric_conformal geodetic2isometric_strictMono")
c("C25","proved","geodetic2conformal_gd geodetic2conformal_isometric geodetic2conformal_poles geodetic2conformal_odd geodetic2conformal_strictMono geodetic2conformalArr_spec")
c("C26","proved","series_latitudes_symmetric series_latitudes_sphere models_moderatelyFlat series_latitudes_strictMono series_latitudes_range")
c("C27","proved","rectifying_round_trip rectifying_round_trip_wgs84 geodetic2rectifying_true geodetic2rectifying_accuracy geodetic2rectifying_accuracy_wgs84 rectifying_near rectifying_radius_accuracy authalic_round_trip authalic_round_trip_wgs84 geodetic2authalic_accuracy geodetic2authalic_accuracy_wgs84 meridianPoint_spec zone_meridian_sphere","True lengths and areas are integrals over the meridian ellipse (Spec/Meridian.lean); polynomial remainders are generated by tools/series and checked by the kernel.")
c("C28","proved","geodetic2spherical_spec")
c("C29","proved","spherical2geodetic_geodetic2spherical spherical2geodetic_geodetic2spherical' geodetic2spherical_spherical2geodetic outsideEvolute_of_radius")
c("C30","proved","anglesep_angle anglesep_metric")
c("C31","proved","geodetic2nvector_normal nvector2geodetic_geodetic2nvector geodetic2nvector_nvector2geodetic nvector2ecef_geodetic2nvector ecef2nvector_surface")
c("C32","proved","nvector_distance_angle nvector_distance_metric nvector_distance_anglesep")
c("C33","proved","nvector_interpolate_spec nvector_interpolate_ends")
c("C34","proved","nvector_mean_spec nvector_mean_perm nvector_mean_replicate cross_track_dist cross_track_sign nvector_intersection_spec")
c("C35","proved","lookAtSpheroid_hit lookAtSpheroid_miss lookAtSpheroid_first lookAtSpheroid_nadir lookAtSpheroid_negative lookAtSpheroid_total","")
c("C36","proved","lookAtSpheroid_hit lookAtSpheroid_ignores_ell","")
c("C37","proved","meridian_arc_symm meridian_arc_eq_zero_iff meridian_arc_additive meridian_dist_spec meridian_arc_sphere meridian_arc_accuracy meridian_arc_accuracy_wgs84","")
c("C38","proved","departure_shortest departure_symm departure_periodic departure_range","")
c("C39","proved","loxodrome_direct_errors loxodrome_direct_course loxodrome_direct_east_west_sphere loxodrome_inverse_direct loxodrome_inverse_direct_sphere loxodrome_inverse_parallel loxodrome_inverse_antimeridian loxodrome_inverse_pole","Constant course proved on every moderately flat ellipsoid; the antimeridian inconsistency of loxodrome_inverse is proved with a witness.")
c("C57","proved","units_LocalFrames units_Aer units_Body units_Latitude lookAtSpheroid_units nvector_units loxodrome_inverse_units","First four groups hold bit-for-bit in every arithmetic F.")
c("C58","proved","default_ellipsoid_LocalFrames default_ellipsoid_Aer default_ellipsoid_Body default_ellipsoid_Latitude default_ellipsoid_rest","")
c("C17","proved","fromName_after_history fromName_identical fromName_after_clear fromName_mutated","State machine over all histories of look-ups, constructions, field assignments and clears.")
c("C18","proved","getGeodesic_current getGeodesic_default","")
c("C61","proved","geodesic_cache_threads geodesic_cache_race","Thread model: interleaving at the granularity of the five source steps of get_cached_geodesic.")
c("C40","proved","vdist_terminates vdist_error_iff vdist_azimuth_range vdist_longitude vdist_symmetric vdist_nonneg_eq_zero_iff vdist_sphere vdist_equator vdistLoopArr_exits vdistArr_error_iff vdistArr_singleton vdistArr_coincident vdistArr_antipodal","Termination for every arithmetic F and every input; the last two are defects of the array path.")
c("C41","proved","vreckon_terminates vreckon_error_iff vreckon_nan_iff vreckon_nan_exists vreckon_destination vreckon_clairaut vreckon_sphere vreckon_zero_range vreckon_equator vreckon_symmetry","On ellipsoids with a^2 <= 2 b^2.")
c("C42","proved","track2_small track2_result track2_first track2_sphere","")
c("C43","proved","angNormalize_mem angNormalize_congr angNormalize_unique angNormalize_periodic angRound_real angDiff_real sumError_real sincosd_real atan2d_real atan2d_mem norm2_unit polyval_real sinCosSeries_sin sinCosSeries_cos","Series evaluator for coefficient lists of every length.")
c("C44","proved","geodesic_direct_range geodesic_direct_shift geodesic_direct_destination geodesic_direct_clairaut geodesic_direct_at_pole geodesic_direct_sphere geodesic_direct_sphere_zero geodesic_direct_equator","Starts with cos(lat) >= 1.5e-8; the arc length on the auxiliary sphere is the one the code's series computes.")
c("C62","proved","geodesic_inverse_range geodesic_inverse_swap geodesic_inverse_mirror_lat geodesic_inverse_lon geodesic_inverse_coincident geodesic_inverse_sphere geodesic_inverse_equator geodesic_inverse_pole geodesic_inverse_pole_short","The last two are the error at a pole.")
c("C45","proved","geodesic_line_length geodesic_line_point geodesic_line_one geodesic_line_sphere","")
c("C46","proved","geodesic_area_error geodesic_area_perimeter geodesic_area_turns kG_c2_area geodesic_area_hemisphere geodesic_area_degenerate geodesic_area_radians","The last three are defects, on every ellipsoid with f <= 1/3.")
c("C47","proved","juliandate_exact juliandate_j2000 juliandate_total juliandate_lt_iff juliandate_nextDay juliandate_elementwise","Against a day count defined by summing month and year lengths; every representable instant.")
c("C48","proved","leapSeconds_exact leapSeconds_mono leapTable_tail taiMinusUtc_mono taiMinusUtc_range utcToTt_exact tt_strictMono utcWithOffset_spec timedeltaSeconds_close timedeltaSeconds_exact","")
c("C49","proved","datetime2sidereal_range datetime2sidereal_longitude datetime2sidereal_elementwise greenwichsrt_elementwise gmst_range gmst_j2000 gmst_daily_gain era_spec nutation_bounds gast_close datetime2siderealVallado_ok","")
c("C50","proved","ecef2eci_eci2ecef eci2ecef_ecef2eci eci_total eci_rigid eci2ecef_ut1","")
c("C51","proved","ecef2eciState_eci2ecefState eci2ecefState_ecef2eciState state_position state_velocity state_total state_total_inside state_velocity_derivative state_velocity_derivative_inverse","")
c("C54","proved","ensureUtc_spec ensureUtc_congr time_functions_congr str2dt_spec","datetime.fromisoformat is a parameter.")
c("C52","proved","geodetic2eci_ignores_eop eci2geodetic_geodetic2eci eci2geodetic_geodetic2eci_surface eci2geodetic_geodetic2eci_polar eci2geodetic_geodetic2eci_fails eci2aer_aer2eci eci2aer_aer2eci_wgs84 eci2aer_ignores_ellipsoid","The independence, the exact round trips, and the two defects with witnesses.")
c("C60","proved","eci_elementwise eci_array_errors eci_no_numpy state_array_fails state_array_single state_array_empty state_no_numpy","Every arithmetic F, every shape.")
c("C53","proved","azel2radec_spec radec2azel_spec radec2azel_azel2radec azel2radec_radec2azel azelradec_lat_error azelradec_dispatch","Directions away from the polar axis resp. zenith/nadir, |lat| < 90; astropy path not modelled.")
c("C55","proved","nvector_bool_radius coerce_list coerce_list_bad coerce_word coerce_datetime callKwargs_spec callKwargs_names kwarg_ell kwarg_bool kwarg_text kwarg_missing cli_defaults cli_none_default exportTable_none registerCommands_spec command_select exportTable_dests cliEllipsoid_spec cli_geodetic2ecef cli_geodetic2ecef_default cli_nvector_distance cli_nvector_cross_track cli_nvector_distance_default_fails nvectorCrossTrack_text_fails json_output isDatetimeParam_iff json_needs_conversion","Python's float/str/strip/fromisoformat are parameters; argparse token recognition is trusted; the export table is generated from the signatures read as text.")
c("C56","proved","exec_frame mutation_table ecef2geodetic_frame enu2aerHeap_arrays enu2aerHeap_mismatch enu2aerHeap_scalars enu2aerHeap_mixed ned2aerHeap_arrays sez2aerHeap_arrays nwu2aerHeap_arrays vincenty_deg_pure vdistHeap_rejected vdistHeap_deg vdistHeap_rad vreckonHeap_deg vreckonHeap_rad_value vreckonHeap_rad zeroTrim_eq_self_iff polarAdjust_eq_self_iff polarAdjust_idem enu2aer_modifies_caller vdist_modifies_caller","Soundness of the alias analysis for all executions; the statement skeletons of the functions with in-place assignments are transcribed by hand. Exact heap models for the functions that do modify arguments.")

c("C63","proved","stateNp_defaults defaults_ecef defaults_enu defaults_ned defaults_nwu defaults_sez defaults_aer defaults_dca defaults_body defaults_rcurve defaults_rsphere defaults_latitude defaults_haversine defaults_spherical defaults_nvector defaults_los defaults_lox defaults_vincenty defaults_karney defaults_eci fromName_wgs84","Statements generated from the Python signatures by tools/defaults.py, for every arithmetic F.")
c("C64","proved","local_geodetic_roundtrip aer_geodetic_roundtrip local_geodetic_wgs84 geodetic_local_roundtrip","Scalar backends for the numeric bounds; the exact equality holds for every backend.")
c("C65","proved","meanm_real meanm_direction meanm_range meanm_perm meanm_repeat meanm_single meanm_reflect meanm_rotate","Lists of every length; numpy's mean is exact addition and division.")
c("C66","proved","geoc2geod_error geoc2geod_error_le geoc2geod_sphere geoc2geod_fixed geoc2geod_odd geodetic_sub_geocentric_le geoc2geod_wgs84_defect","The last is the defect.")
c("C67","proved","geodesic_exists_unique geodesic_direct_true geodesic_direct_point geodesic_direct_wgs84 epsOf_spec","Existence and uniqueness of geodesics proved from the definition (Spec/Geodesic); at an end exactly on a pole the point theorem allows 3e-8 a.")
c("C68","proved","geodesic_curvature euler_spec euler_error_iff euler_bounds euler_is_curvature euler_sphere","Euler's formula is derived from the definition of a geodesic, not assumed.")
c("C69","proved","vreckon_true vreckon_true_wgs84 vreckonArr_true track2_true vLen_close vTurn_close","Vincenty's truncated series A, B, C compared with the integrals of the geodesic derived from Spec/Geodesic.")
c("C70","proved","vdist_solves vdist_solves_dist vdist_solves_wgs84 vdist_true vdist_vreckon track2_reaches vIter_converges","Convergence is proved by contraction (factor 0.4); nearly antipodal pairs, where Vincenty's method is known to fail, are outside the hypotheses.")
c("C71","proved","eci2ecef_iau eci2ecef_polar_motion polar_motion_sign polar_motion_wrong polar_motion_is_inverse","The specification Spec/EarthRotation.lean is written from the published coefficients; nutation is the four-term series of the code's documentation.")
c("C72","proved","models_names models_earth models_bodies models_mean models_io","The published values are in Spec/Bodies.lean.")
c("C73","proved","geodesic_inverse_solves geodesic_inverse_solves_wgs84 geodesic_inverse_solves_of geodesic_inverse_direct geodesic_line_true astroid_solves","Covers start value, Newton iteration with bracketing (converges within the 31 permitted iterations), meridional and equatorial special cases and the length series. Pairs further apart than the stated arc, poles (C62) and pairs near one pole on opposite meridians are outside the hypotheses.")
c("C74","proved","vdist_shortest vdist_shortest_dist vdist_shortest_wgs84 geodesic_inverse_shortest geodesic_inverse_shortest_wgs84 Short.geodesic_shortest Short.geodesic_near_shortest","Short.geodesic_shortest: a geodesic up to the length b(b/a)B is shortest among all Lipschitz curves on the surface (a calibration: the length of the geodesic to a point, as a function of the point, has slope at most one along every curve). Pairs further apart than stated are outside the hypotheses; beyond the cut locus the claim is false of any geodesic.")
c("C75","proved","surfaceDist_metric surfaceDist_bounds anglesep_shortest vdist_triangle vdist_geodesic_inverse_agree geodesic_inverse_triangle","Consequences of C74 and of the metric laws of surfaceDist.")
c("C76","proved","geodetic2ecef_float geodetic2ecef_float_wgs84","Arithmetic model Py/FloatArith.lean: every rounding of relative error at most u; unbounded exponent range. binary64 is an instance.")
c("C77","proved","uvw2enu_float enu_uvw_round_trip_float ecef2enu_float geodetic2enu_float enu2ecef_float enu_ecef_round_trip_float aer2ecef_float geodetic2enu_float_wgs84 enu2aer_float","Same arithmetic model.")
c("C78","proved","ecef2geodetic_float geodetic_round_trip_float geodetic_round_trip_float_wgs84","Same arithmetic model as C76. Scalar backends. The square root of a negative number is 0 in the arithmetic model (Python would raise); it could only arise for axes that differ by a rounding.")
c("C79","proved","loxodrome_inverse_rhumb loxodrome_inverse_near_parallel loxodrome_inverse_all loxodrome_inverse_wgs84 loxodrome_direct_rhumb loxodrome_direct_parallel loxodrome_direct_wgs84 rhumb_unique loxodrome_direct_zero_range_moves","Rhumb lines are specified as curves with constant azimuth in Spec/Rhumb.lean, independently of the code. The last theorem is a defect: courses between 1e-9 and about 1e-7 of east or west.")
c("C80","proved","ecef2geodetic_elementwise enu2aer_elementwise composites_elementwise geodetic2isometric_elementwise departure_elementwise loxodrome_inverse_elementwise loxodrome_direct_elementwise lookAtSpheroid_elementwise local_frames_elementwise aer_dca_elementwise latitudes_elementwise","Arrays are functions from an arbitrary index type (Py/Arr.lean); code with masks is transcribed at array level in Model/ArrayCode.lean. vdist, vreckon and the ECI states, which do not act element by element, are C40, C41, C60. float64 arrays.")
c("C81","proved","ecef2geodetic_mixed geodetic_round_trip_mixed enu2geodetic_mixed aer2geodetic_mixed enu2aer_mixed geodetic2aer_mixed ecef2aer_mixed lookAtSpheroid_mixed ecef2geodetic_shapes ecef2geodetic_latitude_shape geodetic2ecef_kinds","The polymorphic transcription is read at the type of kinds and shapes (Py/Kind.lean, numpy broadcasting); code that indexes with masks is transcribed at that level in Model/Mixed.lean. numpy's rules for indexing numbers and arrays with masks are part of the model. Arrays without axes are not modelled (numpy turns them into scalars).")
c("C82","proved","vreckon_distance vreckon_vdist track2_spacing geodesic_direct_distance geodesic_direct_distance_wgs84 geodesic_direct_inverse","surfaceDist is the infimum over all curves on the surface (Spec/Shortest.lean).")
c("C83","proved","surfaceDist_meridian meridianLength_le_surfaceDist meridian_arc_shortest vdist_meridian_arc geodesic_inverse_meridian_arc","")
c("C84","proved","nan_ecef2geodetic nan_ecef2geodetic_axis num_ecef2geodetic nan_to_geodetic nan_lookAtSpheroid nan_vdist nan_vreckon nan_geodetic2isometric nan_geodetic2conformal nan_nvector_mean nan_meanm nan_nvector_distance nan_nvector_interpolate nan_loxodrome_direct nan_loxodrome_inverse nan_azel_radec nan_body nan_geodetic2ecef num_geodetic2ecef nan_uvw2enu num_uvw2enu nan_ecef2enuv num_ecef2enuv nan_enu2uvw num_enu2uvw nan_enu2ecefv num_enu2ecefv nan_ecef2enu num_ecef2enu nan_enu2ecef num_enu2ecef nan_geodetic2enu num_geodetic2enu nan_enu2aer num_enu2aer nan_aer2enu num_aer2enu nan_ecef2aer num_ecef2aer nan_geodetic2aer num_geodetic2aer nan_aer2ecef num_aer2ecef nan_aer2ned num_aer2ned nan_ned2aer num_ned2aer nan_ned2ecef num_ned2ecef nan_ecef2ned num_ecef2ned nan_geodetic2ned num_geodetic2ned nan_ecef2nedv num_ecef2nedv nan_aer2nwu num_aer2nwu nan_nwu2aer num_nwu2aer nan_nwu2ecef num_nwu2ecef nan_nwu2ecefv num_nwu2ecefv nan_ecef2nwu num_ecef2nwu nan_ecef2nwuv num_ecef2nwuv nan_geodetic2nwu num_geodetic2nwu nan_aer2sez num_aer2sez nan_sez2aer num_sez2aer nan_sez2ecef num_sez2ecef nan_sez2ecefv num_sez2ecefv nan_ecef2sez num_ecef2sez nan_ecef2sezv num_ecef2sezv nan_geodetic2sez num_geodetic2sez nan_enu2dca num_enu2dca nan_dca2enu num_dca2enu nan_ned2dca num_ned2dca nan_dca2ned num_dca2ned nan_ecef2dca num_ecef2dca nan_dca2ecef num_dca2ecef nan_geodetic2dca num_geodetic2dca nan_aer2dca num_aer2dca nan_dca2aer num_dca2aer nan_geocentric_radius num_geocentric_radius nan_transverse num_transverse nan_parallel num_parallel nan_meridian num_meridian nan_geoc2geod num_geoc2geod nan_geodetic2geocentric num_geodetic2geocentric nan_geocentric2geodetic num_geocentric2geodetic nan_conformal2geodetic num_conformal2geodetic nan_isometric2geodetic num_isometric2geodetic nan_geodetic2rectifying num_geodetic2rectifying nan_rectifying2geodetic num_rectifying2geodetic nan_geodetic2authalic num_geodetic2authalic nan_authalic2geodetic num_authalic2geodetic nan_geodetic2parametric num_geodetic2parametric nan_parametric2geodetic num_parametric2geodetic nan_geodetic2spherical num_geodetic2spherical nan_spherical2geodetic num_spherical2geodetic nan_haversine num_haversine nan_anglesep_meeus num_anglesep_meeus nan_anglesep num_anglesep nan_geodetic2nvector num_geodetic2nvector nan_nvector2geodetic num_nvector2geodetic nan_nvector2ecef num_nvector2ecef nan_meridian_arc num_meridian_arc nan_meridian_dist num_meridian_dist nan_departure num_departure nan_cart2pol num_cart2pol nan_pol2cart num_pol2cart nan_cart2sph num_cart2sph nan_sph2cart num_sph2cart","The transcriptions are read at the type of numbers with NaN (Py/Nan.lean). Infinite arguments are not covered (C's hypot(inf, nan) is inf), nor are the Karney functions and the ECI conversions; rhumb lines: points outside the polar caps. The generated theorems are written by tools/nan.py.")
c("C85","proved","bc_ecef2geodetic bc_ecef2geodetic_accepts bc_enu2aer bc_enu2aer_accepts bc_enu2geodetic bc_aer2geodetic bc_ecef2aer bc_geodetic2aer bc_composed_accept bc_geodetic2ecef bc_uvw2enu bc_ecef2enuv bc_enu2uvw bc_enu2ecefv bc_ecef2enu bc_enu2ecef bc_geodetic2enu bc_aer2enu bc_aer2ecef bc_aer2ned bc_ned2ecef bc_ecef2ned bc_geodetic2ned bc_ecef2nedv bc_aer2nwu bc_nwu2ecef bc_nwu2ecefv bc_ecef2nwu bc_ecef2nwuv bc_geodetic2nwu bc_aer2sez bc_sez2ecef bc_sez2ecefv bc_ecef2sez bc_ecef2sezv bc_geodetic2sez bc_enu2dca bc_dca2enu bc_ned2dca bc_dca2ned bc_ecef2dca bc_dca2ecef bc_geodetic2dca bc_aer2dca bc_geocentric_radius bc_transverse bc_parallel bc_meridian bc_geoc2geod bc_geodetic2geocentric bc_geocentric2geodetic bc_conformal2geodetic bc_isometric2geodetic bc_geodetic2rectifying bc_rectifying2geodetic bc_geodetic2authalic bc_authalic2geodetic bc_geodetic2parametric bc_parametric2geodetic bc_geodetic2spherical bc_spherical2geodetic bc_haversine bc_anglesep_meeus bc_anglesep bc_geodetic2nvector bc_nvector2geodetic bc_nvector2ecef bc_meridian_arc bc_meridian_dist bc_cart2pol bc_pol2cart bc_cart2sph bc_sph2cart","Values and shapes together (Py/ND.lean); the functions without value-dependent branches are the polymorphic transcriptions read at that type (generated, Props/BroadcastElem.lean), the mask code is transcribed in Model/MixedVal.lean.")
c("C86","proved","juliandate_float juliandate_float_mono juliandate_float_resolution utcToTt_float greenwichsrt_float datetime2sidereal_float","")
c("C87","proved","eci2ecef_float ecef2eci_float eci_roundtrip_float","")
c("C88","proved","body_float body_roundtrip_float local_matrix_float ecef2bodyv_float ecef2bodyv_roundtrip_float position2body_float","LocalFrame.toBody and fromBody name the eight library functions by frame (Props/FloatBody.lean).")
c("C89","proved","astropy_refused astropy_absent astropy_ignores_eop eci_astropy_frames radec_astropy_sky eci_astropy_roundtrip geodetic_aer_astropy_roundtrip radec_astropy_roundtrip anglesep_astropy radec_refused_ignores_ut1 azel2radec_refused_iff radec_refused_roundtrip","astropy is a parameter of the model; what a theorem needs of it is a hypothesis (Astropy.Frames, Sky, Inverse, SkyInverse, Separation). The defect is proved as it stands.")
c("C90","proved","eci2ecef_state_float ecef2eci_state_float","The exact velocity is the derivative of movingAt (Props/FloatState.lean), the Earth-fixed coordinates of a uniformly moving point under the published formulas. Scalar states.")
c("C91","proved","anglesep_float haversine_vanishes anglesep_small_vanishes","Square roots of negative numbers are 0 and arcsines of numbers above 1 are pi/2 in the arithmetic model; Python raises or returns NaN there.")
c("C92","proved","rcurve_float rsphere_float rsphere_power_float sameShape_ofArgs sameShape_none","authalic (logarithm, small eccentricities) and euler are not in this claim.")
c("C93","proved","geodetic2spherical_pole spherical2geodetic_pole geodetic2spherical_pole_error rnd64_rnd64","Rounding to 53 bits with unbounded exponent. The claim states the behaviour of the code as it is.")
c("C94","proved","geocentric_latitude_float","Same arithmetic model as C76.")
