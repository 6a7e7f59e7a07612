"""Status of each property: S(id, status, namespace, 'theorem names', note)."""
I = 'Pvlib.Props.Inverter'
S('C01','proved',I,'sandia_le_Paco sandia_night sandia_operating sandia_nan')
S('C02','proved',I,'sandia_rated sandia_startup')
S('C03','proved',I,'sandiaMulti_error_iff sandiaMulti_error sandiaMulti_perm sandiaMulti_value sandiaMulti_same_voltage sandiaMulti_dark')
S('C04','proved',I,'adr_range adr_out_of_window adr_night adr_operating')
S('C05','proved',I,'pvwatts_value pvwatts_zero pvwatts_range pvwatts_le_dc pvwatts_mono pvwatts_not_mono_everywhere pvwattsMulti_perm pvwattsMulti_eq')
S('C06','proved',I,'transformer_balance transformer_le_input transformer_strictMono transformer_nan')
G = 'Pvlib.Props.Geometry'
S('C17','proved',G,'aoiProjection_dot aoiProjection_range aoiProjection_nan_iff aoiProjection_rotate aoiProjection_turn aoiProjection_swap aoi_spec aoi_range aoi_facing aoi_horizontal')
S('C18','proved',G,'beam_value beam_nonneg beam_behind beam_le_dni beam_eq_poa_direct')
T = 'Pvlib.Props.Transposition'
S('C19','proved',T,'total_sums total_direct skyDiffuse_ok_iff skyDiffuse_error')
S('C20','proved',T,'isotropic_components haydavies_components reindl_components perez_components perezDriesse_components perezDriesse_components_shipped pdSpline_convex perezDriesse_components_counterexample','The code violates the sum for perez_driesse when the total is clipped at zero; the counterexample is proved.')
S('C21','proved',T,'isotropic_horizontal king_horizontal haydavies_horizontal reindl_horizontal perez_horizontal perezDriesse_horizontal_shipped ground_horizontal total_horizontal klucher_horizontal_gt','klucher does not satisfy it (proved).')
S('C22','proved',T,'perezDriesse_no_diffuse skyDiffuse_nonneg')
K = 'Pvlib.Props.Tracking'
S('C13','proved',K,'singleaxis_night singleaxis_ranges singleaxis_day')
S('C14','proved',K,'trackerNormal_unit trackerNormal_perp surfaceOrientation_normal')
S('C15','proved',K,'sun_dot_normal trueTracking_optimal')
S('C16','proved',K,'singleaxis_backtrack backtrack_no_shade backtrack_tight backtrack_towards_horizontal')
S('C41','proved',K,'axisTilt_in_slope crossAxisTilt_parallel slope_tracker_parallel')
H = 'Pvlib.Props.Shading'
S('C30','proved',H,'shadedFraction_range martinez_value martinez_range martinez_unshaded martinez_mono martinez_night')
S('C31','proved',H,'maskingAngle_spec maskingAngle_top maskingAngle_antitone groundAngle_spec passias_value passias_range passias_mono')
S('C42','proved',H,'passias_always_number maskingAnglePassias_average maskingAnglePassias_flat maskingAngle_eq')
N = 'Pvlib.Props.Snow'
S('C07','proved',N,'fullyCovered_iff coverage_recurrence')
S('C08','proved',N,"coverage_range coverage_range' coverage_new_snow coverage_decreases coverage_bare_ground")
S('C09','proved',N,'dcLoss_spec dcLoss_mono')
S('C10','proved',N,'townsend_range townsend_no_snow')
O = 'Pvlib.Props.Soiling'
S('C11','proved',O,'kimber_recurrence kimber_range rollingSum_fin')
S('C12','proved',O,'hsu_value hsu_cleaned hsu_range hsu_decreases hsuMass_eq')
D = 'Pvlib.Props.Decomposition'
S('C23','proved',D,'erbs_closes orgillHollands_closes boland_closes erbsDriesse_closes erbsDriesse_error_iff louche_closes default_threshold_ok')
S('C24','proved',D,'erbs_fraction orgillHollands_fraction boland_fraction erbsDriesse_fraction')
S('C25','proved',D,'clearskyIndex_nan_iff clearskyIndex_value clearskyIndex_range clearnessIndex_range clearnessIndexZI_range clearnessIndex_value clearnessIndex_negative ktPrimeFactor_range')
S('C26','proved',D,'ktPrimeBin_spec zenithBin_spec wBin_spec deltaBin_spec dirintCoeffs_entry dirintCoeffs_nan_iff dirintTable_range dirint_day dirint_night dirint_single disc_nonneg disc_bad disc_day','finding: dirint is NaN for zenith > 90 where disc is 0, and NaN for a length-1 series with use_delta_kt_prime')
S('C27','proved',D,'complete_error_iff complete_keeps complete_closes complete_dni complete_dni_closes')
S('C28','proved',D,'extra_near_constant extra_error_iff extra_periodic')
S('C29','proved','Pvlib.Props.GtiDirint','gtiDirint_guesses gtiDirint_best gtiDirint_stops gtiDirint_error_iff','the numerical content of a pass is an arbitrary function')
S('C43','proved',D,'liujordan_closes campbellNorman_closes campbellNorman_night')
S('C44','proved',D,'spitters_range')
S('C32','proved','Pvlib.Props.Golden','golden_error_iff golden_terminates golden_bracket golden_value golden_maximiser','exact arithmetic: with floats the loop may not reach atol when atol is below the spacing of doubles at the interval')
T = 'Pvlib.Props.ToolsMisc'
S('C33','proved',T,'latIndex_spec lonIndex_spec index_exists index_bad_name index_nan')
S('C34','proved',T,'buildKwargs_get buildKwargs_keys buildArgs_ok buildArgs_error')
S('C35','proved',T,"djd_roundtrip djd_roundtrip' djd_order djd_epoch",'time-zone display is abstract: an aware datetime is its UTC instant and a zone name')
S('C36','proved','Pvlib.Props.Scaling','wavelet_sum smoothed_vr_one smoothed_const smooth_damps vr_range vr_zero_sites scales_pos_iff wvm_spec','the numerical minimiser recovering the site count is a parameter; finding: wvm raises for a time step above 4096 s')
A = 'Pvlib.Props.PvArray'
S('C37','proved',A,'adr_stc adr_dark adr_finite huld_stc huld_dark huld_proportional huld_valueError_iff batzelis_stc batzelis_dark batzelis_power batzelis_nan')
S('C38','proved',A,'dvoracek_valueError_iff dvoracek_range dvoracek_antitone dvoracek_named')
S('C39','proved','Pvlib.Props.Location','setTz_int setTz_float_whole setTz_float_bad setTz_other setTz_name setTz_atomic run_idempotent run_last')
S('C40','proved',T,'lookupAltitude_spec lookupAltitude_error')
AT = 'Pvlib.Props.Atmosphere'
S('C45','proved',AT,'tdew_of_rh_of_tdew rh_of_tdew_of_rh rh_le_100_iff')
S('C46','proved',AT,'windspeed_contract windspeed_value windspeed_surface windspeed_surface_types windspeed_other_types windspeed_documented_differs windspeed_laws windspeed_not_neg')
S('C47','proved',AT,'angstrom_roundtrip angstrom_compose')
S('C48','proved',AT,'airmass_accepts airmass_night airmass_positive airmass_simple airmass_youngirvine_sign absolute_airmass')
S('C49','proved',AT,'location_get_airmass gueymard2003_rejected')
S('C50','proved',AT,'alt2pres_antitone pres2alt_antitone gueymard94_pw_laws kasten96_laws')
TE='Pvlib.Props.Temperature'
S('C51','proved',TE,'steady_resistance steady_no_sun steady_mono sapm_cell_at_reference steady_nan')
S('C52','proved',TE,'faimanRad_none faimanRad_balance faimanRad_sky ross_contract ross_noct')
S('C53','proved',TE,'standoff_table noctSam_contract noctSam_at_noct noctSam_laws noctSam_height noctSam_effective')
S('C54','proved',TE,'glm_parameters glm_fresh glm_faiman glm_pvsyst glm_noct_sam glm_sapm glm_conversions')
S('C55','proved','Pvlib.Props.Prilliman','prilliman_errors prilliman_coarse prilliman_value average_bounds prilliman_constant prilliman_causal')
S('C56','proved','Pvlib.Props.Fuentes','fuentes_step fuentes_bounds skyC_le','Under the Physical conditions on NOCT, emissivity and absorption (met by the defaults for INOCT from 45 to 69 C); outside them the ground-temperature radicand can be negative and the code returns NaN.')
S('C57','proved','Pvlib.Props.Transposition','perez_formula')
S('C58','proved','Pvlib.Props.Iam','ashrae_isIam ashrae_total martinRuiz_isIam schlick_isIam sapm_value sapm_nan')
S('C59','proved','Pvlib.Props.IamPhysical','physical_isIam physical_coated physical_null_coating','For n > 2+sqrt 3 (no glass) the code can return values above 1; for |aoi| beyond 180 degrees it is periodic, not zero.')
S('C60','proved','Pvlib.Props.IamDiffuse','martinRuizDiffuse_range martinRuizDiffuse_swap')
S('C61','proved','Pvlib.Props.IamMarion','interp_contract linSpline_node linSpline_range interp_linear','The quadratic and cubic splines of scipy are abstract; the linear one is modelled.')
S('C62','proved','Pvlib.Props.IamMarion','marion_errors marion_average marion_sky marion_ground_horizontal marion_swap marion_nan marionDiffuse_contract')
S('C63','proved','Pvlib.Props.IamDiffuse','schlickDiffuse_conserve schlickDiffuse_swap schlickDiffuse_special hemisphere_average')
S('C64','proved','Pvlib.Props.IamFit','convert_unknown convert_params convert_martinRuiz_nonpos convert_physical_physical convert_single convert_martinRuiz_physical fixedN intercept_zero convert_ashrae_physical fit_contract residual_only_front residual_zero_iff returned_is_minimised fit_recovers_ashrae','scipy.optimize.minimize is a parameter that respects its bounds; convert physical->physical fails with UnboundLocalError in the code and in the model.')
S('C65','proved','Pvlib.Props.SingleDiode','bishop88_point bishop88_solves solves_iff bishop88_beyond_breakdown bishop88_nan')
S('C66','proved','Pvlib.Props.SingleDiode','gradient_correct_iff gradients_correct','The breakdown part of the gradient is proved wrong unless breakdown_voltage=-1 (finding).')
S('C67','proved','Pvlib.Props.SingleDiode','current_strictAnti voltage_strictMono solution_unique voc_nonneg voc_bound current_zero_nonneg iFromV_unique vFromI_unique method_names brentq_iFromV brentq_vFromI','Root finders are parameters with their documented contract.')
S('C68','proved','Pvlib.Props.SingleDiode','mpp_is_max brentq_mpp exists_brackets')
S('C69','proved','Pvlib.Props.LambertW','diode_unique exists_isLambertW exists_isLogLambertW iFromV_solves vFromI_solves vFromI_noShunt roundtrip roundtrip\' agrees_with_bishop88 invalid_nan','The Lambert W function is a parameter with its defining equation; C70 bounds the error of pvlib\'s approximation.')
S('C70','proved','Pvlib.Props.LambertW','logLambertw_accuracy lambertwPvlib_accuracy lambertwPvlib_invalid iFromV_accuracy','Truncation error in exact arithmetic; rounding is not modelled.')
S('C71','proved','Pvlib.Props.LambertW','exists_minimisesUnimodal mpp_unique lambertw_points lambertw_dark lambertw_tiny lambertw_ivcurve','find_minimum is a parameter, exact on unimodal functions.')
S('C72','proved','Pvlib.Props.LambertW','batzelis_points batzelis_dark')
S('C73','proved','Pvlib.Props.Spectrum','mismatch_value mismatch_self mismatch_scale mismatch_flat usable_range mismatch_standard value_node value_range value_left value_right')
S('C74','proved','Pvlib.Props.Spectrum','firstsolar_errors firstsolar_value case_insensitive sapmFactor_value sapmFactor_nonneg jrc_value pvspec_value caballero_value caballero_polo_errors polo_clip polo_value firstsolar_modules caballero_modules pvspec_modules jrc_modules polo_modules')
S('C75','proved','Pvlib.Props.Spectrum','qe_sr_inverse ideal_response normalize_max ape_range ape_negative')
S('C76','proved','Pvlib.Props.CalcParams','desoto_value desoto_reference desoto_linear desoto_sane desoto_sat_strictMono cec_value')
S('C77','proved','Pvlib.Props.CalcParams','pvsyst_value pvsyst_reference pvsyst_reference_shunt pvsyst_shunt pvsyst_sane pvsyst_sat_strictMono')
S('C78','proved','Pvlib.Props.PvDiode','exists_good case_insensitive unknown_method max_power_point_lambertw max_power_point_max singlediode_agree singlediode_brentq from_agree desoto_power current_increases desoto_power_strictMono','Numerical routines (Lambert W, root finders, minimiser) are parameters with contracts.')
S('C79','proved','Pvlib.Props.Sapm','sapm_value sapm_reference sapm_optional sapm_optional_reference sapm_dark sapm_invalid sapm_voltages sapm_voc_mono effective_irradiance')
S('C80','proved','Pvlib.Props.PvLosses','scale_value scale_unknown scale_power')
S('C81','proved','Pvlib.Props.PvLosses','pvwatts_dc_value marion_facts pvwatts_dc_reference pvwatts_losses_value pvwatts_losses_default dc_ohmic')
S('C82','proved','Pvlib.Props.PvLosses','ffill_value bfill_exact_value combine_value combine_nan','fill_method nearest is not modelled.')
S('C83','proved','Pvlib.Props.PvLosses','retrieve_sam_dispatch translate_value normalize_warnings','Reading and parsing the CSV files is not modelled.')
S('C84','proved','Pvlib.Props.PvSystem','system_nonempty system_empty system_keeps system_one system_default array_albedo')
S('C85','proved','Pvlib.Props.PvSystem','validate_iff validate_error getIrradiance_iff getIam_iff getCellTemperature_iff desoto_iff cec_iff pvsyst_iff sapm_iff pvwattsDc_iff sapmEff_iff firstSolar_iff scale_iff getAoi_eq sapmSpectral_iff dcOhms_iff inferCellType_iff getIrradiance_mismatch getCellTemperature_mismatch perTwo_mismatch pvwattsDc_first_error single_irradiance pvwattsDc_independent')
S('C86','proved','Pvlib.Props.ArrayClass','ac_case ac_unknown ac_sandia_one ac_sandia_many ac_pvwatts ac_adr_many ac_adr_one ac_mismatch ac_sandia_no_voltage')
S('C87','proved','Pvlib.Props.ArrayClass','hasSub_iff temps_given infer_sapm infer_other infer_none cellType_priority cellType_accepted firstSolar_choice')
S('C88','proved','Pvlib.Props.ArrayClass','temp_sapm temp_sapm_missing temp_pvsyst temp_faiman temp_faimanRad temp_fuentes temp_noctSam temp_ross temp_unknown temp_inferred iam_models dcOhms_choice')
S('C89','proved','Pvlib.Props.ArrayClass','irradiance_fixed irradiance_tracker irradiance_default_ok aoi_fixed')
S('C90','proved','Pvlib.Props.ArrayClass','losses_value desoto_value desoto_missing cec_value pvsyst_value pvwattsDc_value pvwattsDc_missing')
S('C91','proved','Pvlib.Props.ChainConfig','dc_named_accepted dc_named_refused dc_named_model dc_singlediode dc_inferred dc_inferred_refused dc_accepted_computes aoi_inferred aoi_inferred_refused aoi_named aoi_named_refused spectral_cases losses_cases temp_inferred temp_named temp_refused_kept temp_unknown ac_inferred ac_named names_case aoi_inferred_computes temp_accepted_computes')
S('C92','proved','Pvlib.Props.ChainConfig','chain_iff presets pvwatts_preset sapm_preset orientation_cases')
S('C93','proved','Pvlib.Props.ChainRun','list_as_tuple run_model_accepts run_model_refuses run_poa_accepts run_eff_accepts run_strict_refuses run_missing_columns')
S('C94','proved','Pvlib.Props.ChainRun','run_model_fresh run_poa_fresh run_eff_fresh complete_tuple_fresh complete_frame_history completed_frame')
S('C95','proved','Pvlib.Props.ChainArrays','run_model_array run_poa_array run_eff_array run_ac')
S('C96','proved','Pvlib.Props.ChainArrays','run_shapes')
S('C97','proved','Pvlib.Props.ChainFacts','array_independent container_irrelevant')
S('C98','proved','Pvlib.Props.ChainFacts','poa_entry_agrees eff_entry_agrees')
S('C99','proved','Pvlib.Props.ChainFacts','pvwatts_ac_range sandia_ac_range pvwatts_dc_value')
S('C100','proved','Pvlib.Props.ChainTotal','run_eff_total run_poa_total run_model_total pvwatts_chain_runs sapm_chain_runs')
S('C101','proved','Pvlib.Props.Clearsky','ineichen_formula ineichen_night ineichen_nan ineichen_closure ineichen_dhi_negative ineichen_antitone ineichen_upper ineichen_scale')
S('C102','proved','Pvlib.Props.ClearskySolis','haurwitz_formula haurwitz_range haurwitz_antitone haurwitz_nan')
S('C103','proved','Pvlib.Props.ClearskySolis','solis_formula solis_water_floor solis_nan solis_scale solis_range solis_monotone')
S('C104','proved','Pvlib.Props.ClearskyBird','transmittances rayleigh_exceeds_one bird_formula bird_closure bird_night bird_nan')
S('C105','proved','Pvlib.Props.Linke','month_middles turbidity_linear day_covered turbidity_at_middle lookup_spec lookup_error')
S('C106','proved','Pvlib.Props.ClearskyDetect','detect_explicit detect_infer detect_no_iterations thresholds')
S('C107','proved','Pvlib.Props.ClearskyDetect','detection_spec nan_not_clear nan_sample_not_clear alpha_least_squares detect_total self_detect window_finite detect_returns window_real')
S('C108','proved','Pvlib.Props.SolarGeometry','zenith_angle zenith_noon zenith_symmetric zenith_nan azimuth_range azimuth_exact azimuth_approx azimuth_noon_south azimuth_noon_wrong azimuth_mirror azimuth_unwrapped azimuth_nan')
S('C109','proved','Pvlib.Props.SolarGeometry','cooper_formula cooper_range cooper_seasons spencer_range eot_spencer_range eot_pvcdrom_range yearly noon_zenith_pos')
S('C110','proved','Pvlib.Props.SolarLocal','naive_refused hour_angle_fixed hour_angle_zone hour_angle_ordinary_day hour_angle_dst_day hour_angle_skipped_midnight hour_angle_repeated_midnight hour_angle_zones_agree')
S('C111','proved','Pvlib.Props.SolarLocal','sunset_angle rise_set_transit rise_set_polar equinox_day_length rise_set_dst_day rise_set_raises rise_set_elementwise transit_hour_angle')
S('C112','proved','Pvlib.Props.Ephemeris','epoch_days epoch_days_outside kepler nat_stops_kepler true_anomaly equatorial horizon_coords refraction row_spec ephemeris_spec civil_ok sidereal_longitude ephemeris_empty ephemeris_nat')
S('C113','proved','Pvlib.Props.SpaThreads','threaded_eq_numpy threaded_in_bounds numpy_shape threaded_no_race thread_count chunks_even interleaving_exists chunk_sum')
S('C114','proved','Pvlib.Props.SpaDeltat','deltat_spec deltat_jump boundaries_eq deltat_finite deltat_nan_year deltat_modern deltat_modern_increasing deltat_warns_iff')
S('C115','proved','Pvlib.Props.SpaJulian','jd_next_day jd_within_day jd_epoch jd_unix jd_next_day_julian jd_zero jd_reform_glitch')
S('C116','proved','Pvlib.Props.SpaBounds','distance_range distance_range_century spa_distance_range longitude_range latitude_bound nutation_bound nutation_rows obliquity_range')
S('C117','proved','Pvlib.Props.SpaGeometry','equatorial_coordinates eclToEq_unit Pvlib.Props.SpaPosition.geo_spec')
S('C118','proved','Pvlib.Props.SpaGeometry','observer_point parallax_direction horizon_direction Pvlib.Props.SpaPosition.observer_unique Pvlib.Props.SpaPosition.spa_direction')
S('C119','proved','Pvlib.Props.SpaPosition','spa_total eot_range refraction_eval refraction_pos refraction_below refraction_singular refraction_zenith_neg apparent')
S('C120','proved','Pvlib.Props.SpaRiseSet','accepts_iff h0_crosses h0_nan_iff unwrap_recovers unwrap_small unwrap_loses times_spec spa_rise_set no_polar_day')
S('C121','proved','Pvlib.Props.SolarDispatch','mode_is_last_how import_ok import_raises_iff import_unknown import_idempotent import_env sound_history')
S('C122','proved','Pvlib.Props.SolarDispatch','runs_eq spa_python_spec numba_numpy_agree unknown_method method_case defaults zone_irrelevant frame_shape nrel_c_arguments refract_zero numpy_total pyephem_rows ephemeris_rows')
S('C123','proved','Pvlib.Props.SolarDispatch','localDate_spec rise_set_naive rise_set_spec same_date_same_answer rise_set_real')
S('C124','proved','Pvlib.Props.SolarDispatch','distance_spec pyRound_near pyRound_tie pyRound_nearest ephem_time ephem_rise_set_raises ephem_rise_set')
S('C125','proved','Pvlib.Props.BifacialShadow','fraction_range fraction_exact fraction_part fraction_formula fraction_closed_form default_rows_enough default_rows_too_few fraction_nan shadowPart_fin unshaded_fin')
S('C126','proved','Pvlib.Props.BifacialRow','row_sky_view row_ground_view row_views_sum row_views_monotone row_sky_masking')
S('C127','proved','Pvlib.Props.BifacialRow','row_sky_mean row_sky_negative_tilt row_sky_mean_range row_sky_additive row_sky_swapped integ_fin')
S('C128','proved','Pvlib.Props.BifacialGround','ground_sky_exact ground_sky_range blocked_iff')
S('C129','proved','Pvlib.Props.BifacialStrings','string_ge crossed_unobstructed_le hottel ground_sky_integ_nonneg row_ground_additive row_ground_additive_row row_ground_telescopes row_ground_integ_nonneg row_ground_whole')
S('C130','proved','Pvlib.Props.BifacialStrings','ground_sky_scale row_ground_scale unshaded_scale maxRows_scale sheds_scale')
S('C131','proved','Pvlib.Props.Sheds','shaded_range backside_normal direct_fin ground_fraction beam_conserved')
S('C132','proved','Pvlib.Props.Sheds','side_nonneg side_dark circumsolar_conserved')
S('C133','proved','Pvlib.Props.Sheds','model_choice both_sides monofacial')
S('C134','proved','Pvlib.Props.Ants','segments_spec shaded_value shaded_partition shaded_order side_nonneg direct_mean')
S('C135','proved','Pvlib.Props.Ants','sky_model_errors sky_model_isotropic sky_model_moves wrap_spec back_normal slope_zero result_shape ground_light sloped_call')
S('C136','proved','Pvlib.Props.Ants','mismatch_value mismatch_fill_factor mismatch_default mismatch_zero_ff')
S('C137','proved','Pvlib.Props.Reverse','poaFromGhi_is_total poaFromGhi_real forward_spec ghi_from_poa_error_iff ghi_from_poa_nan ghi_from_poa_dark ghi_from_poa_infeasible ghi_from_poa_feasible ghi_from_poa_default_converges forward_horizontal ghi_from_poa_horizontal')
S('C138','proved','Pvlib.Props.GtiFull','dirindex_not_neg dirindex_value dirindex_clear dirindex_range dirindex_low_sun')
S('C139','proved','Pvlib.Props.GtiFull','gti_dirint_no_front gti_dirint_returns gti_dirint_bad_model gti_dirint_front gti_dirint_fit gti_pass_formula gti_dirint_back_off gti_dirint_back_nan gti_dirint_back_dni gti_dirint_back_consistent gti_back_kt_morning gti_back_kt_afternoon gti_back_dni_formula')
S('C140','proved','Pvlib.Props.NumDiff','ends_nan first_derivative_exact second_derivative_equal_spacing second_derivative_of_constant')
S('C141','proved','Pvlib.Props.Rectify','rectified_points rectified_increasing rectified_first_quadrant rectified_order_irrelevant rectified_idempotent')
S('C142','proved','Pvlib.Props.Schumaker','slopes spline_layout knots_increasing data_points_kept slopes_bounded pieces_monotone line_reproduced knot_interval_interpolates_iff spline_jumps')
S('C143','proved','Pvlib.Props.Astm','good_lib_exists fit_exact result_structure power_identities measured_voc_isc extrapolated_voc extrapolated_isc max_power_exact succeeds')
S('C144','proved','Pvlib.Props.SandiaSimple','good_lib_exists linear_part_errors linear_part_not_nan no_exponential_part returned_parameters exact_recovery')
S('C145','proved','Pvlib.Props.Cocontent','input_errors cocontent_is_integral cocontent_closed_form regression_exact params_exact recovers_cell io_error iph_misses_isc')
S('C146','proved','Pvlib.Props.SdmSteps','goodNum_exists iph_meets_isc rs_meets_mpp rsh_fixed_iff rsh_update_stationary rsh_update_passes io_step loop_passes io_passes npMax_nan npMax_ge nan_stops_all io_tolerance overflow_branch_wrong overflow_misses_mpp filter_iff filter_nan')
S('C147','proved','Pvlib.Props.SdmLoop','refine_step loop_passes convergence_meaning initial_io dropped_forever loop_result no_iterations initial_values placeholder_refined desoto_result pvsyst_result')
S('C148','proved','Pvlib.Props.SdmExtract','goodRlm_exists desoto_extraction egFactor_bounds one_irradiance_raises pvsyst_extraction shunt_identified desoto_diode pvsyst_gamma shunt_start')
S('C149','proved','Pvlib.Props.SdmDesoto','curve_exists system_iff guess_ok guess_value outcome start_values')
S('C150','proved','Pvlib.Props.SdmDesoto','batzelis batzelis_points batzelis_scaling')
S('C151','proved','Pvlib.Props.SdmIec','tempco_exact shunt_exact series_exact gamma_exact saturation_exact photocurrent_exact gamma_post_exact iec_outcome iec_steps')
S('C152','proved','Pvlib.Props.SdmCoeff','difference_error temperature_coeff temperature_coeff_error temperature_coeff_raises roots_exist')
S('C153','proved','Pvlib.Props.SdmCoeff','cec_sam')
S('C154','proved','Pvlib.Props.Spectrl2','table physical_row call day_required attenuation forward_negative')
S('C155','proved','Pvlib.Props.Panond','reads unique last_line_ignored second_equals values blank_line_raises blank_line_misfiles','Text is a list of characters; float() and int() are arbitrary partial functions.')
S('C156','proved','Pvlib.Props.Tmy3','naive coerced typical_year typical_increasing last_row_year bad_date')
S('C157','proved','Pvlib.Props.StationIndex','tmy2_index tmy2_leap_day tmy2_typical fields_contiguous tmy2_layout header_angle epw_index epw_leap_day epw_typical localized')
S('C158','proved','Pvlib.Props.StationIndex','srml_index srml_half_hourly srml_coarse srml_zone srml_short')
S('C159','proved','Pvlib.Props.StationIndex','day_of_year_index networks_agree crn_index bsrn_index')
S('C160','proved','Pvlib.Props.IoTables','srml_table names_distinct srml_names')
S('C161','proved','Pvlib.Props.IoTables','surfrad_missing bsrn_missing crn_missing layouts layout_names')
S('C162','proved','Pvlib.Props.IoTables','days_requested day_files_distinct months_requested month_files_distinct loop get_days surfrad_ignores_map_variables get_srml get_bsrn','Servers are arbitrary functions from file names to outcomes.')
S('C163','proved','Pvlib.Props.IoTables','records_exact missing_record no_records pairs lr0100_row lr0300_row lr0500_row bsrn_layout bsrn_coordinates')
S('C164','proved','Pvlib.Props.Polling','era5_answer era5_timeout era5_terminates solaranywhere_answer solaranywhere_timeout solaranywhere_terminates solaranywhere_stuck','Servers and clocks are arbitrary functions.')
S('C165','proved','Pvlib.Props.Cams','header no_column_line_never_ends index_subdaily index_daily index_monthly index_unknown_label integrated mean every_step_has_hours')
S('C166','proved','Pvlib.Props.Pvgis','hourly hourly_no_notes hourly_no_header tmy')
S('C167','proved','Pvlib.Props.Pvgis','roll roll_perm roll_back coerce_and_roll same_moment leap_year_moves no_zone leap_day_refused requested aspect_direction horizon_points horizon_sorted')
S('C168','proved','Pvlib.Props.Services','solcast solargis solargis_clear_tilted nasa era5 era5_long_unconverted merra2 requested_names era5_requested psm4_names meteonorm_table')
S('C169','proved','Pvlib.Props.Services','moments_respected meteonorm_ignores_offset nasa_local_day solaranywhere_half_range middles psm4_index psm4_no_zone')
S('C170','proved','Pvlib.Props.Services','acis_cells acis_grid acis_altitudes solargis_resolutions solaranywhere_meta solaranywhere_two_colons solaranywhere_missing merra2_header merra2_pairs')
S('C171','proved','Pvlib.Props.Times','instant_decides index_elementwise utc_day_of_year doy_is_date array_elementwise scalar_raises_iff dateOf_onDay onDay_dateOf readings_utc')
S('C172','proved','Pvlib.Props.Times','doy_is_midnight doy_elementwise doy_whole_microseconds doy_raises_iff doy_counts_on doy_round_trip')
S('C173','proved','Pvlib.Props.Times','localized_unchanged datetime_first_instant datetime_in_gap pandas_unique pandas_raises_iff')
S('C174','proved','Pvlib.Props.Times','brentq_exists calc_time_crossing calc_time_errors calc_time_zones')
S('C175','proved','Pvlib.Props.LocationMethods','init_keeps init_altitude init_bad_tz from_tmy from_tmy_numbered from_epw fractional_tz keywords_never')
S('C176','proved','Pvlib.Props.LocationMethods','solarposition_delegates rise_set_refuses rise_set_delegates')
S('C177','proved','Pvlib.Props.LocationMethods','given_position computed_position ineichen_given pressure_ignored haurwitz_ignores accepted_keywords solis_given unknown_model clearsky_physical')
S('C178','proved','Pvlib.Props.Fits','goodPolyfit_exists fit_recovers fit_zero_start fit_outcome falling_wrong')
S('C179','proved','Pvlib.Props.Fits','xy_arcs xy_one xy_shift xy_perm xy_antimeridian xy_nan')
S('C180','proved','Pvlib.Props.Fits','isCurveFit_exists options_override adr_inside adr_no_efficiency adr_start adr_weights')
S('C181','proved','Pvlib.Props.Requests','solcast_request solcast_repeated solcast_key')
S('C182','proved','Pvlib.Props.Requests','meteonorm_request meteonorm_albedo_ignored meteonorm_reply')
S('C183','proved','Pvlib.Props.Requests','nsrdb_place nsrdb_query')
S('C184','proved','Pvlib.Props.RequestsMore','cams_refused cams_request cams_email cams_reply')
S('C185','proved','Pvlib.Props.RequestsMore','pvgis_format pvgis_hourly pvgis_tmy pvgis_meta pvgis_time')
S('C186','proved','Pvlib.Props.RequestsMore','renamed_old renamed_other deprecated_same message_made message_text')
S('C187','proved','Pvlib.Props.Store','call_clean results_keep run_weather losses_once complete_content')
S('C188','proved','Pvlib.Props.Store','preset_clean presets_history golden_clean trimmed_clean poa_clean merra2_own months_history')
S('C189','proved','Pvlib.Props.Store','array_dicts arrays_separate inferred_shared inferred_leaks inferred_pvsyst system_losses')
S('C190','proved','Pvlib.Props.Symmetry','projection_bearing total_bearing moves bearing_needed')
S('C191','proved','Pvlib.Props.Symmetry','sky_scale total_scale')
S('C192','proved','Pvlib.Props.PerezContinuity','names name_1990 perez_jumps perez_negative_isotropic spline_continuous driesse_continuous')
S('C193','proved','Pvlib.Props.ArrayScaling','diode_array array_i_from_v array_v_from_i array_singlediode array_batzelis')
S('C194','proved','Pvlib.Props.ArrayScaling','better_current better_points')
S('C195','proved','Pvlib.Props.ErbsShape','driesse_near_erbs driesse_smooth erbs_jumps')
S('C196','proved','Pvlib.Props.ErbsShape','erbs_rises boland_rises driesse_rises orgill_falls','erbs_driesse only up to 1e-14 of ghi/cos(zenith): its rounded coefficients leave jumps of that size; orgill_hollands is shown not to have the property')
S('C197','proved','Pvlib.Props.TrackerSymmetry','turn reverse_axis mirror not_behind','hypothesis psza != 180 of the two exchanges holds whenever the sun is not behind the plane of the axis (not_behind)')
S('C198','proved','Pvlib.Props.Continuation','snow_continues kimber_continues hsu_continues')
S('C199','proved','Pvlib.Props.Hemispheres','zenith_mirrored azimuth_mirrored rise_set_mirrored days_add_up')
S('C200','proved','Pvlib.Props.BifacialFlip','poa_bearing flip')
S('C201','proved','Pvlib.Props.ChainStrings','regrouped_pvwatts regrouped_sandia')
S('C202','proved','Pvlib.Props.ChainDark','dark_plane dark_effective dark_poa dark_weather')
S('C203','proved','Pvlib.Props.ChainRows','rows_independent rows_independent_poa rows_independent_eff')
S('C204','proved','Pvlib.Props.LockedTracker','same_normal locked_rotation locked_is_fixed')
S('C205','proved','Pvlib.Props.Overcast','overcast_isotropic uniform_surroundings albedo_step albedo_monotone facing_away_falls')
S('C206','proved','Pvlib.Props.SpectralResponse','spline_unique spline_exists response_pos response_le response_overshoots response_data response_series','Splines in exact arithmetic.')
S('C207','proved','Pvlib.Props.SamTable','sam_units_ignored sam_cells adr_parses adr_comma','Splitting lines into typed fields is pandas.')
S('C208','proved','Pvlib.Props.Files','files_closed files_parsed case_matters')
S('C209','proved','Pvlib.Props.NewtonInputs','shape_largest common_shape no_broadcast user_keywords_win first_index')
S('C210','proved','Pvlib.Props.Tables','spa_L0 spa_L1 spa_L2 spa_L3 spa_L4 spa_L5 spa_B0 spa_B1 spa_R0 spa_R1 spa_R2 spa_R3 spa_R4 nutation_coefficients nutation_arguments spectrl2_wavelength spectrl2_et spectrl2_vapor spectrl2_ozone spectrl2_mixed perez_coefficients dirint_coefficients srml_names midc_names nasa_names era5_names merra2_names psm4_names psm4_request_names meteonorm_names meteonorm_steps cell_types tmy2_widths tmy2_names bsrn_columns_0100 bsrn_fields_0100 bsrn_columns_0300 bsrn_fields_0300 bsrn_columns_0500 bsrn_fields_0500 solcast_names solargis_names solargis_minus_nine surface_albedos water_color water_roughness crn_missing_codes sapm_temperatures pvsyst_temperatures huld_pvgis5 huld_pvgis6 perez_driesse_splines','A check of transcription: the kernel compares two independently written copies of the data; scripts/tables.py reads the Python source.')
S('C211','proved','Pvlib.Props.SingleDiode','newton_iFromV newton_iFromV_all newton_vFromI newton_vFromI_all solution_at_voltage solution_at_current',"Exact arithmetic; scipy's scalar newton is specified as newtonRun in Props/SingleDiodeNewton.lean (the vectorised one follows the same iterates, newtonSeq).")
S('C212','proved','Pvlib.Props.SingleDiode','chandrupatla_finds chandrupatla_wrong_root','The root finder is a parameter.')
S('C213','proved','Pvlib.Props.Longitude','spa_turn ephemeris_turn position_turn rise_set_spa_turn hour_angle_turn zenith_turn rise_set_geometric_turn',"'nrel_c' and 'pyephem' call libraries that are not modelled.")
S('C214','proved','Pvlib.Props.TwoSides','opposite_flip aoi_back direct_and_ground isotropic_both haydavies_both king_both')
S('C215','proved','Pvlib.Props.ChainTare','night_tare night_nan')
S('C216','proved','Pvlib.Props.ChainNight','sapm_night tracker_night')
S('C217','proved','Pvlib.Props.ChainMono','dc_value ac_value same_losses dc_mono ac_mono')
S('C218','proved','Pvlib.Props.TransContinuity','total_continuous')
S('C219','proved','Pvlib.Props.Midc','midc_file midc_bad_date midc_no_date nrel nrel_error shifted station_maps')
S('C220','proved','Pvlib.Props.Pvfactors','report from_end cut_off wrong_length')
S('C221','proved','Pvlib.Props.SpaContinuity','spa_continuous apparent_continuous horizon_somewhere')
S('C222','proved','Pvlib.Props.DhiStable','erbs_steady driesse_steady orgill_steady boland_steady')
S('C223','proved','Pvlib.Props.ChainWarm','cell_cooler dc_cooler ac_cooler')
S('C224','proved','Pvlib.Props.Warm','voltage_falls desoto_falls cec_falls pvsyst_falls desoto_no_gain mpp_outweighs desoto_outweighs')
S('C225','proved','Pvlib.Props.BirdHaze','absorbers aerosols')
S('C226','proved','Pvlib.Props.Dirt','kimber_cleaner hsu_cleaner hsu_fine_dust snow_less')
S('C227','proved','Pvlib.Props.ChainDiode','params dc_value more_light warmer chain_built')
S('C228','proved','Pvlib.Props.InverterMono','sandia_mono sandia_rated_iff sandia_overload sandia_le_dc adr_value adr_mono adr_le_dc adr_rated_iff')
S('C229','proved','Pvlib.Props.Townsend','value worse more_falls counts')
S('C230','proved','Pvlib.Props.Wavelet','value average_eq reduction_eq reduction_mono')
S('C231','proved','Pvlib.Props.AirMass','airmass_value airmass_increasing youngirvine_peak kastenyoung_zenith standard_atmosphere precipitable_water broadband_aerosol')
S('C232','proved','Pvlib.Props.FillFactor','diode_concave iFromV_concave fill_factor')
S('C233','proved','Pvlib.Props.Huld','huld_shipped')
S('C234','proved','Pvlib.Props.PvsystLight','shunt_product current_increases\' pvsyst_power dc_value more_light warmer')
S('C235','proved','Pvlib.Props.SapmLight','light_mono slope_of_signs dc_columns more_light')
S('C236','proved','Pvlib.Props.DenseRows','tracker_denser shade_sparser views_denser sky_mean_denser masking_denser passias_denser ground_denser')
S('C237','proved','Pvlib.Props.ChainLosses','factor left_anti left_le_one left_all same_but_losses noLess_of dc_less ac_less no_reflection no_reflection_dc')
S('C238','proved','Pvlib.Props.ChainWires','lost_rated lost_mono same_but_wires wires_less no_more ac_no_more')
S('C239','proved','Pvlib.Props.SkyModels','isotropic_sky haydavies_sky reindl_sky klucher_sky king_sky klucher_vs_isotropic haydavies_vs_isotropic reindl_vs_haydavies king_vs_isotropic global_follows')
S('C240','proved','Pvlib.Props.Mountings','constructed sandia_value sandia_order pvsyst_value pvsyst_order')
S('C241','proved','Pvlib.Props.ChainGround','more_light more_effective no_less dc_no_less column_wins')
S('C242','proved','Pvlib.Props.DayCourse','nearer_noon nearer_noon_strict zenith_midnight midnight_sun polar_night exist_iff longer_north longer_summer earlier_later twelve_hours')
S('C243','proved','Pvlib.Props.YearCourse','cooper_rises cooper_falls cooper_solstices days_lengthen days_shorten longest_day day_exists noon_height')
S('C244','proved','Pvlib.Props.ClearDay','ineichen_lower_sun symmetric haurwitz_day haurwitz_daylight solis_day ineichen_day')
