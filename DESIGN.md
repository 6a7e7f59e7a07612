# Formal model of pvlib-python in Lean 4

## What is here

* `properties.jsonl` – the properties, in terms of pvlib's API.
* `lean/Verif/Base` – the numeric type `Fl`, Python exceptions, list/series helpers.
* `lean/Verif/Model` – the model of the code, function by function. Every definition
  cites the file and lines of `/repo` it models, and every simplification.
* `lean/Verif/Proofs` – helper lemmas only.
* `lean/Verif/Props` – the property theorems, with the small independent specifications
  they use and, beside each theorem, an `example` showing its hypotheses are met.
* `seeded/LOG.jsonl` – wrong programs tried against the theorems.
* `scripts/` – generator for `properties.jsonl`, `MANIFEST.json` and the table below.

## Trusted base

* Lean 4.33.0's kernel, and Mathlib's definitions of the real numbers and of
  `sin, cos, exp, log, arccos, arctan, Complex.arg, rpow, integrals`.
* Axioms: at most `propext`, `Classical.choice`, `Quot.sound` (what Mathlib's reals need);
  no axiom of our own, no `native_decide`, no `bv_decide`.
* The reading of the Python source. The code was not run; the model follows the text of
  `/repo` at the pinned commit, branch by branch.

### Idealisations (apply everywhere)

1. **No rounding.** `Fl` is numpy's float64 with exact real arithmetic: NaN, -inf, +inf or a
   real. NaN propagation, comparisons with NaN, `inf - inf`, `0*inf`, division by zero and
   domain errors follow IEEE-754/numpy. Overflow to inf and underflow do not happen.
   Decimal literals denote the exact decimal, not the nearest double.
2. **Unsigned zero.** There is one zero, treated as `+0` (`1/0 = +inf`, `arctan2(0,-1) = pi`).
3. **Numpy division.** `/` never raises; pure-Python scalars (where `x/0` raises
   ZeroDivisionError) are not distinguished from numpy scalars. The one exception, commented
   where it is made, is code that relies on that distinction.
4. **Elementwise code is modelled on one element**; a property that relates elements
   (cumulative sums, forward fill, group-by, rolling windows, sorting) is modelled on lists.
   Pandas index *alignment* between differently indexed operands is not modelled: operands
   share one index.
5. **Exceptions** are values (`Except PyErr α`); warnings are not modelled unless a property
   is about them.
6. Third-party routines (scipy optimisers, splines, h5 files, HTTP) are parameters; what is
   assumed about them is stated in the theorem that uses them. Exceptions, transcribed from
   knowledge of the library and so part of the trusted reading: FITPACK's quadratic B-spline
   evaluation (Perez-Driesse), `scipy.optimize.bisect` (reverse transposition). numpy's polynomial fit and roots,
   least squares and eigenvectors, statsmodels' robust regression, scipy's `root` and `least_squares` and PySAM (IV tools) are
   parameters with an explicit specification, shown satisfiable, or arbitrary.

8. **Objects.** Everywhere else data frames and dictionaries are values; `Model/Store.lean` has them as objects in a store, to state what calls change in
   place and what their results share. What is computed is an arbitrary function there.
7. **Files.** Text is a list of characters. Tables are what `pandas.read_csv`/`read_fwf` deliver: rows of numbers; formatting numbers
   with leading zeros and parsing the result with `strptime` is modelled on the numbers, with an own model of the proleptic Gregorian
   calendar (`Base/Calendar.lean`). HTTP and FTP servers are arbitrary functions from requests to answers.

## What is modelled, file by file

Generated by `scripts/coverage.py` from the line ranges cited in the model. "Modelled" means that lines of the function
are in the model; the comment at the definition says what of it is simplified. What is not modelled: HTTP and file access,
plotting-free glue, the engine of the package pvfactors, and what the table lists.

<!-- BEGIN COVERAGE -->
Functions and methods with modelled lines: 588 of 601.

* `pvlib/_deprecation.py` (3 of 4): modelled: _generate_deprecation_message, deprecated, renamed_kwarg_warning. Not modelled: warn_deprecated.
* `pvlib/albedo.py` (1 of 1): modelled: inland_water_dvoracek.
* `pvlib/atmosphere.py` (12 of 12): modelled: pres2alt, alt2pres, get_absolute_airmass, get_relative_airmass, gueymard94_pw, rh_from_tdew, tdew_from_rh, bird_hulstrom80_aod_bb, kasten96_lt, angstrom_aod_at_lambda, angstrom_alpha, windspeed_powerlaw.
* `pvlib/bifacial/ants2d.py` (5 of 5): modelled: _shaded_fraction, _ants2d_singleside, _apply_sky_diffuse_model, _apply_ground_slope, get_irradiance.
* `pvlib/bifacial/infinite_sheds.py` (7 of 7): modelled: _poa_ground_shadows, _poa_sky_diffuse_pv, _poa_ground_pv, _shaded_fraction, get_irradiance_poa, get_irradiance, _backside.
* `pvlib/bifacial/loss_models.py` (1 of 1): modelled: power_mismatch_deline.
* `pvlib/bifacial/pvfactors.py` (1 of 1): modelled: pvfactors_timeseries.
* `pvlib/bifacial/utils.py` (12 of 12): modelled: _solar_projection_tangent, _unshaded_ground_fraction, vf_ground_sky_2d, vf_ground_sky_2d_integ, _vf_poly, vf_row_sky_2d, vf_row_sky_2d_integ, vf_row_ground_2d, vf_row_ground_2d_integ, _obstructed_string_lengths, _dist, _angle.
* `pvlib/clearsky.py` (22 of 22): modelled: ineichen, lookup_linke_turbidity, _interpolate_turbidity, _calendar_month_middles, haurwitz, simplified_solis, _calc_i0p, _calc_taub, _calc_b, _calc_taug, _calc_g, _calc_taud, _calc_d, _calc_stats, _slope_nstd_windowed, _max_diff_windowed, _line_length_windowed, _to_centered_series, _clear_sample_index, _clearsky_get_threshold, detect_clearsky, bird.
* `pvlib/iam.py` (21 of 21): modelled: ashrae, physical, martin_ruiz, martin_ruiz_diffuse, interp, sapm, marion_diffuse, marion_integrate, schlick, schlick_diffuse, _get_model, _check_params, _sin_weight, _residual, _get_ashrae_intercept, _ashrae_to_physical, _martin_ruiz_to_physical, _minimize, _process_return, convert, fit.
* `pvlib/inverter.py` (8 of 8): modelled: _sandia_eff, _sandia_limits, sandia, sandia_multi, adr, pvwatts, pvwatts_multi, fit_sandia.
* `pvlib/iotools/acis.py` (6 of 6): modelled: _get_acis, get_acis_prism, get_acis_nrcc, get_acis_mpe, get_acis_station_data, get_acis_available_stations.
* `pvlib/iotools/bsrn.py` (4 of 4): modelled: _empty_dataframe_from_logical_records, get_bsrn, _parse_bsrn, read_bsrn.
* `pvlib/iotools/crn.py` (1 of 1): modelled: read_crn.
* `pvlib/iotools/epw.py` (2 of 2): modelled: read_epw, _parse_epw.
* `pvlib/iotools/era5.py` (5 of 5): modelled: _same, _k_to_c, _j_to_w, _m_to_cm, get_era5.
* `pvlib/iotools/merra2.py` (1 of 2): modelled: get_merra2. Not modelled: _k_to_c.
* `pvlib/iotools/meteonorm.py` (7 of 7): modelled: get_meteonorm_forecast_basic, get_meteonorm_forecast_precision, get_meteonorm_observation_realtime, get_meteonorm_observation_training, get_meteonorm_tmy, _get_meteonorm, _parse_meteonorm.
* `pvlib/iotools/midc.py` (4 of 4): modelled: _format_index, _format_index_raw, read_midc, read_midc_raw_data_from_nrel.
* `pvlib/iotools/nasa_power.py` (1 of 1): modelled: get_nasa_power.
* `pvlib/iotools/panond.py` (4 of 4): modelled: _num_type, _element_type, _parse_panond, read_panond.
* `pvlib/iotools/psm4.py` (7 of 7): modelled: get_nsrdb_psm4_aggregated, get_nsrdb_psm4_tmy, get_nsrdb_psm4_conus, get_nsrdb_psm4_full_disc, get_nsrdb_psm4_polar, get_nsrdb_psm4_polar_tmy, read_nsrdb_psm4.
* `pvlib/iotools/pvgis.py` (10 of 10): modelled: get_pvgis_hourly, _parse_pvgis_hourly_json, _parse_pvgis_hourly_csv, read_pvgis_hourly, _coerce_and_roll_tmy, get_pvgis_tmy, _parse_pvgis_tmy_json, _parse_pvgis_tmy_csv, read_pvgis_tmy, get_pvgis_horizon.
* `pvlib/iotools/sodapro.py` (2 of 2): modelled: get_cams, read_cams.
* `pvlib/iotools/solaranywhere.py` (2 of 2): modelled: get_solaranywhere, read_solaranywhere.
* `pvlib/iotools/solargis.py` (1 of 1): modelled: get_solargis.
* `pvlib/iotools/solcast.py` (6 of 6): modelled: get_solcast_tmy, get_solcast_historic, get_solcast_forecast, get_solcast_live, _solcast2pvlib, _get_solcast.
* `pvlib/iotools/solrad.py` (2 of 2): modelled: read_solrad, get_solrad.
* `pvlib/iotools/srml.py` (4 of 4): modelled: read_srml, _map_columns, _format_index, get_srml.
* `pvlib/iotools/surfrad.py` (3 of 3): modelled: read_surfrad, _format_index, get_surfrad.
* `pvlib/iotools/tmy.py` (4 of 4): modelled: read_tmy3, read_tmy2, _parsemeta_tmy2, _read_tmy2.
* `pvlib/irradiance.py` (52 of 53): modelled: get_extra_radiation, _handle_extra_radiation_types, aoi_projection, aoi, beam_component, get_total_irradiance, get_sky_diffuse, poa_components, get_ground_diffuse, isotropic, klucher, haydavies, reindl, king, perez, _calc_delta, _calc_zeta, _f, perez_driesse, _poa_from_ghi, _ghi_from_poa, ghi_from_poa_driesse_2024, clearsky_index, clearness_index, clearness_index_zenith_independent, _kt_kt_prime_factor, disc, _disc_kn, dirint, _dirint_from_dni_ktprime, _delta_kt_prime_dirint, _temp_dew_dirint, _dirint_coeffs, _dirint_bins, dirindex, gti_dirint, _gti_dirint_check_input, _gti_dirint_lt_90, _gti_dirint_gte_90, _gti_dirint_gte_90_kt_prime, erbs, erbs_driesse, orgill_hollands, boland, campbell_norman, _liujordan, _get_perez_coefficients, _get_dirint_coeffs, dni, complete_irradiance, louche, diffuse_par_spitters. Not modelled: __getattr__.
* `pvlib/ivtools/sde.py` (9 of 9): modelled: fit_sandia_simple, _find_mp, _sandia_beta0_beta1, _sandia_beta3_beta4, _sandia_simple_params, _calc_I0, _fit_sandia_cocontent, _cocontent, _cocontent_regress.
* `pvlib/ivtools/sdm/_fit_desoto_pvsyst_sandia.py` (8 of 8): modelled: _initial_iv_params, _update_iv_params, _extract_sdm_params, _update_io, _filter_params, _check_converge, _update_rsh_fixed_pt, _calc_theta_phi_exact.
* `pvlib/ivtools/sdm/cec.py` (1 of 1): modelled: fit_cec_sam.
* `pvlib/ivtools/sdm/desoto.py` (5 of 5): modelled: fit_desoto, _system_of_equations_desoto, fit_desoto_sandia, _fit_desoto_sandia_diode, fit_desoto_batzelis.
* `pvlib/ivtools/sdm/pvsyst.py` (11 of 11): modelled: fit_pvsyst_sandia, _fit_pvsyst_sandia_gamma, pvsyst_temperature_coeff, fit_pvsyst_iec61853_sandia_2025, _fit_tempco_pvsyst_iec61853_sandia_2025, _fit_shunt_resistances_pvsyst_iec61853_sandia_2025, _fit_series_resistance_pvsyst_iec61853_sandia_2025, _fit_diode_ideality_factor_pvsyst_iec61853_sandia_2025, _fit_saturation_current_pvsyst_iec61853_sandia_2025, _fit_photocurrent_pvsyst_iec61853_sandia_2025, _fit_diode_ideality_factor_post_pvsyst_iec61853_sandia_2025.
* `pvlib/ivtools/utils.py` (6 of 6): modelled: _numdiff, rectify_iv_curve, _schumaker_qspline, astm_e1036, _log_lambertw, _lambertw_pvlib.
* `pvlib/location.py` (9 of 10): modelled: Location.__init__, Location.tz, Location.from_tmy, Location.from_epw, Location.get_solarposition, Location.get_clearsky, Location.get_airmass, Location.get_sun_rise_set_transit, lookup_altitude. Not modelled: Location.pytz.
* `pvlib/modelchain.py` (76 of 81): modelled: get_orientation, ModelChainResult._result_type, ModelChainResult.__setattr__, ModelChain.__init__, ModelChain.with_pvwatts, ModelChain.with_sapm, ModelChain.dc_model, ModelChain.infer_dc_model, ModelChain.sapm, ModelChain._singlediode, ModelChain.pvwatts_dc, ModelChain.ac_model, ModelChain.infer_ac_model, ModelChain.sandia_inverter, ModelChain.adr_inverter, ModelChain.pvwatts_inverter, ModelChain.aoi_model, ModelChain.infer_aoi_model, ModelChain.ashrae_aoi_loss, ModelChain.physical_aoi_loss, ModelChain.sapm_aoi_loss, ModelChain.martin_ruiz_aoi_loss, ModelChain.schlick_aoi_loss, ModelChain.interp_aoi_loss, ModelChain.no_aoi_loss, ModelChain.spectral_model, ModelChain.first_solar_spectral_loss, ModelChain.sapm_spectral_loss, ModelChain.no_spectral_loss, ModelChain.temperature_model, ModelChain.infer_temperature_model, ModelChain._set_celltemp, ModelChain.sapm_temp, ModelChain.pvsyst_temp, ModelChain.faiman_temp, ModelChain.fuentes_temp, ModelChain.noct_sam_temp, ModelChain.dc_ohmic_model, ModelChain.dc_ohms_from_percent, ModelChain.no_dc_ohmic_loss, ModelChain.losses_model, ModelChain.infer_losses_model, ModelChain.pvwatts_losses, ModelChain.no_extra_losses, ModelChain.effective_irradiance_model, ModelChain.complete_irradiance, ModelChain._complete_irradiance, ModelChain._prep_inputs_solar_pos, ModelChain._prep_inputs_albedo, ModelChain._prep_inputs_airmass, ModelChain._prep_inputs_tracking, ModelChain._prep_inputs_fixed, ModelChain._verify_df, ModelChain._configure_results, ModelChain._assign_weather, ModelChain._assign_total_irrad, ModelChain._assign_times, ModelChain.prepare_inputs, ModelChain._check_multiple_input, ModelChain.prepare_inputs_from_poa, ModelChain._get_cell_temperature, ModelChain._prepare_temperature_single_array, ModelChain._prepare_temperature, ModelChain.run_model, ModelChain.run_model_from_poa, ModelChain._run_from_effective_irrad, ModelChain.run_model_from_effective_irradiance, _irrad_for_celltemp, _snl_params, _adr_params, _pvwatts_params, _copy, _all_same_index, _common_keys, _tuple_from_dfs, _to_tuple. Not modelled: _getmcattr, _mcr_repr, ModelChain.desoto, ModelChain.cec, ModelChain.pvsyst.
* `pvlib/pvarray.py` (5 of 5): modelled: pvefficiency_adr, fit_pvefficiency_adr, _infer_k_huld, huld, batzelis.
* `pvlib/pvsystem.py` (55 of 57): modelled: _unwrap_single_value, PVSystem.__init__, PVSystem._validate_per_array, PVSystem._infer_cell_type, PVSystem.get_aoi, PVSystem.get_irradiance, PVSystem.get_iam, PVSystem.get_cell_temperature, PVSystem.calcparams_desoto, PVSystem.calcparams_cec, PVSystem.calcparams_pvsyst, PVSystem.sapm, PVSystem.sapm_spectral_loss, PVSystem.sapm_effective_irradiance, PVSystem.first_solar_spectral_loss, PVSystem.singlediode, PVSystem.i_from_v, PVSystem.get_ac, PVSystem.scale_voltage_current_power, PVSystem.pvwatts_dc, PVSystem.pvwatts_losses, PVSystem.dc_ohms_from_percent, Array.__init__, Array._infer_temperature_model_params, Array._infer_cell_type, Array.get_aoi, Array.get_irradiance, Array.get_iam, Array.get_cell_temperature, Array.dc_ohms_from_percent, FixedMount.get_orientation, SingleAxisTrackerMount.get_orientation, calcparams_desoto, calcparams_cec, calcparams_pvsyst, _pvsyst_Rsh, _pvsyst_IL, _pvsyst_Io, _pvsyst_gamma, _pvsyst_nNsVth, retrieve_sam, _normalize_sam_product_names, _parse_raw_sam_df, sapm, sapm_effective_irradiance, singlediode, max_power_point, v_from_i, i_from_v, scale_voltage_current_power, pvwatts_dc, pvwatts_losses, dc_ohms_from_percent, dc_ohmic_losses, combine_loss_factors. Not modelled: PVSystem.num_arrays, AbstractMount.get_orientation.
* `pvlib/scaling.py` (4 of 4): modelled: wvm, _compute_vr, latlon_to_xy, _compute_wavelet.
* `pvlib/shading.py` (7 of 7): modelled: ground_angle, masking_angle, masking_angle_passias, sky_diffuse_passias, projected_solar_zenith_angle, shaded_fraction1d, direct_martinez.
* `pvlib/singlediode.py` (13 of 13): modelled: estimate_voc, bishop88, bishop88_i_from_v, bishop88_v_from_i, bishop88_mpp, _shape_of_max_size, _prepare_newton_inputs, _lambertw_v_from_i, _lambertw_i_from_v, _lambertw, _vmp_opt, _pwr_optfcn, batzelis.
* `pvlib/snow.py` (6 of 6): modelled: _time_delta_in_hours, fully_covered_nrel, coverage_nrel, dc_loss_nrel, _townsend_effective_snow, loss_townsend.
* `pvlib/soiling.py` (2 of 2): modelled: hsu, kimber.
* `pvlib/solarposition.py` (27 of 27): modelled: get_solarposition, spa_c, _spa_python_import, _datetime_to_unixtime, spa_python, sun_rise_set_transit_spa, _ephem_convert_to_seconds_and_microseconds, _ephem_to_timezone, _ephem_setup, sun_rise_set_transit_ephem, pyephem, ephemeris, calc_time, pyephem_earthsun_distance, nrel_earthsun_distance, _calculate_simple_day_angle, equation_of_time_spencer71, equation_of_time_pvcdrom, declination_spencer71, declination_cooper69, solar_azimuth_analytical, solar_zenith_analytical, hour_angle, _hour_angle_to_hours, _local_times_from_hours_since_midnight, _times_to_hours_after_local_midnight, sun_rise_set_transit_geometric.
* `pvlib/spa.py` (50 of 51): modelled: julian_day_dt, julian_day, julian_ephemeris_day, julian_century, julian_ephemeris_century, julian_ephemeris_millennium, sum_mult_cos_add_mult, heliocentric_longitude, heliocentric_latitude, heliocentric_radius_vector, geocentric_longitude, geocentric_latitude, mean_elongation, mean_anomaly_sun, mean_anomaly_moon, moon_argument_latitude, moon_ascending_longitude, longitude_obliquity_nutation, mean_ecliptic_obliquity, true_ecliptic_obliquity, aberration_correction, apparent_sun_longitude, mean_sidereal_time, apparent_sidereal_time, geocentric_sun_right_ascension, geocentric_sun_declination, local_hour_angle, equatorial_horizontal_parallax, uterm, xterm, yterm, parallax_sun_right_ascension, topocentric_sun_right_ascension, topocentric_sun_declination, topocentric_local_hour_angle, topocentric_elevation_angle_without_atmosphere, atmospheric_refraction_correction, topocentric_elevation_angle, topocentric_zenith_angle, topocentric_astronomers_azimuth, topocentric_azimuth_angle, sun_mean_longitude, equation_of_time, solar_position_loop, solar_position_numba, solar_position_numpy, solar_position, transit_sunrise_sunset, earthsun_distance, calculate_deltat. Not modelled: nocompile.
* `pvlib/spa_c_files/spa_py_example.py` (0 of 1). Not modelled.
* `pvlib/spectrum/irradiance.py` (2 of 2): modelled: get_reference_spectra, average_photon_energy.
* `pvlib/spectrum/mismatch.py` (7 of 7): modelled: calc_spectral_mismatch_field, spectral_factor_firstsolar, spectral_factor_sapm, spectral_factor_caballero, spectral_factor_pvspec, spectral_factor_jrc, spectral_factor_polo.
* `pvlib/spectrum/response.py` (3 of 3): modelled: get_example_spectral_response, sr_to_qe, qe_to_sr.
* `pvlib/spectrum/spectrl2.py` (2 of 2): modelled: _spectrl2_transmittances, spectrl2.
* `pvlib/temperature.py` (26 of 26): modelled: _temperature_model_params, sapm_cell, sapm_module, sapm_cell_from_module, pvsyst_cell, faiman, faiman_rad, ross, _fuentes_hconv, _hydraulic_diameter, fuentes, _adj_for_mounting_standoff, noct_sam, prilliman, generic_linear, GenericLinearModel.__init__, GenericLinearModel.__call__, GenericLinearModel.get_generic_linear, GenericLinearModel.use_faiman, GenericLinearModel.to_faiman, GenericLinearModel.use_pvsyst, GenericLinearModel.to_pvsyst, GenericLinearModel.use_noct_sam, GenericLinearModel.to_noct_sam, GenericLinearModel.use_sapm, GenericLinearModel.to_sapm.
* `pvlib/tools.py` (25 of 25): modelled: cosd, sind, tand, asind, acosd, atand, localize_to_utc, datetime_to_djd, djd_to_datetime, _pandas_to_doy, _pandas_to_utc, _doy_to_datetimeindex, _datetimelike_scalar_to_doy, _datetimelike_scalar_to_datetimeindex, _scalar_out, _array_out, _build_kwargs, _build_args, _golden_sect_DataFrame, _get_sample_intervals, _degrees_to_index, _first_order_centered_difference, get_pandas_index, normalize_max2one, _file_context_manager.
* `pvlib/tracking.py` (7 of 7): modelled: singleaxis, _unit_normal, calc_surface_orientation, calc_axis_tilt, _calc_tracker_norm, _calc_beta_c, calc_cross_axis_tilt.
* `pvlib/transformer.py` (1 of 1): modelled: simple_efficiency.
<!-- END COVERAGE -->

## Findings

Behaviour of the code that the proofs brought out and that a user may not expect. Those marked (thm) are themselves
theorems.

* inverter.sandia: for parameters with negative C0 (almost all), an input far above the rating makes the reported AC power fall again,
  below the rating and without limit, since only the upper cap is applied to the parabola (thm, C228).
* air mass: the default model (Kasten-Young) gives less than one overhead and still less a thousandth of a degree off, and youngirvine1967
  falls again close to the horizon (thm, C231); huld: in the faintest light the power is negative for every shipped coefficient set (thm, C233).
* calcparams_pvsyst: whether power grows with light depends on the dark shunt resistance, shown as long as it is at most 8.4 times the one in
  strong light (C234); inference of the pvsyst DC model needs R_sh_exp only through the module parameters, not through _DC_MODEL_PARAMS.
* ModelChain: PVWatts losses scale every DC column (currents and voltages as well as power), so p_mp is no longer v_mp times i_mp, and ohmic
  losses change p_mp only, leaving v_mp, the voltage the inverter sees, as it is (thm, C237, C238).
* hsu: with the default settling velocities more PM2.5 at the same PM10 gives *cleaner* modules, because the coarse share, which settles
  faster, is PM10 minus PM2.5 (thm, C226); ModelChain.run_model: air temperature changes the irradiance on tilted planes, not only the cell
  temperature, because it enters the sun's apparent position through refraction (C223).
* pvfactors_timeseries with integer solar zeniths drops the fraction of a degree of tilt and azimuth, `np.full_like` taking the type of its first argument (thm);
  read_midc on raw files whose lines are longer than the header files every value under the wrong name (thm).
* iotools: read_panond never reads the last line of a file, drops text after a second '=', and a blank line between an object and its
  items raises IndexError or misfiles an item (thm); read_tmy3 with coerce_year moves the last row of a file that counts hours from 0
  to the end of the following year (thm); read_srml cannot read half-hourly files (thm); get_surfrad ignores map_variables (thm);
  _parse_bsrn's own message for a missing LR0004 can never be raised (iterating a file never yields an empty line);
  read_cams never returns for a file without '# Observation period' line (thm); get_pvgis_tmy with a non-zero roll_utc_offset and a
  leap coerce_year shifts values around 28 February by a day (thm);
  Meteonorm requests ignore the UTC offset of start and end (thm); NASA POWER requests use the local date as UTC date (thm);
  get_solaranywhere with only start or only end raises AttributeError (thm); Solargis' missing code -9 stays in GTIc, because
  NA_9_COLUMNS has 'GIc' (thm), and 'PT30M' is not translated (thm); get_merra2 returns precipitable_water in kg/m2 where the other
  services give cm; get_acis_available_stations gives altitude in feet, the data functions in metres (thm).
* times and Location: Location.from_tmy and from_epw raise for files from zones that are not whole hours ahead of UTC (thm), and for any
  keyword argument, although the documentation offers them (thm); get_clearsky ignores `pressure` with ineichen and haurwitz once a
  solar position is given, haurwitz accepts and ignores any keyword, and linke_turbidity together with interp_turbidity raises
  TypeError (thm); localize_to_utc silently shifts a naive datetime that falls in a clock change while a pandas index raises (thm);
  days of year past the end of the year count on into the next (thm); calc_time reads naive bounds as UTC and always returns UTC (thm).
* fits: inverter.fit_sandia gives C2 = NaN for an inverter with zero start power, and too small a Pdco if AC power falls before the
  rating is reached (thm); latlon_to_xy does not wrap longitudes at the antimeridian (thm).
* requests: get_meteonorm_tmy ignores `albedo` (thm); get_solcast_historic puts the API key into the query as well as the header (thm);
  get_cams raises IndexError for error replies without an exception report (thm); read_pvgis_hourly and read_pvgis_tmy lower-case the file
  extension but not an explicit format, so 'CSV' is refused although 'data.CSV' is read (thm).
* windspeed_powerlaw: in four of the nine cases the exponent of a surface type differs from the table in the function's own documentation (thm).
* shared objects: temperature parameters inferred for an Array are the dictionary of TEMPERATURE_MODEL_PARAMETERS itself; changing them in one array
  changes them for every other array with the same mounting and for arrays constructed later (thm).
* get_example_spectral_response overshoots: the relative response exceeds 1 between 950 and 1000 nm (thm); retrieve_sam cannot read the
  comma-separated coefficients shown in its own comment (thm); read_epw and read_bsrn are case-sensitive about 'http' and '.gz' where
  retrieve_sam is not (thm); read_panond refuses open files (thm); method='newton' does not broadcast two-dimensional inputs and fails for
  empty arrays with scalars (thm).
* SPECTRL2: at an asymmetry factor of 0.99 the forward scattering fraction is negative (`Spectrl2.forward_negative`); the physical
  theorem therefore assumes at most 0.95.
* Irradiance: gti_dirint with max_iterations=0 uses an unbound variable; erbs_driesse clips ghi at 0; perez_driesse components
  may not sum to the total when clipped; dirint is NaN for zenith > 90 where disc is 0, and NaN for a length-1 series (thm);
  campbell_norman is NaN at night; dirindex is NaN (not 0) between max_zenith and 90 degrees (thm); behind the plane, gti_dirint
  looks the DIRINT coefficient up with the front solution's kt' instead of the averaged one (thm), and is NaN at azimuth
  exactly 180 (thm).
* Perez: the coefficient set '1990', named in the documentation, raises KeyError (thm); with the default set perez drops by more than
  3 W/m2 at a bin boundary while dni rises (thm), and its isotropic component can be negative (thm).
* erbs jumps by more than 2e-4 in the diffuse fraction (thm); orgill_hollands' pieces do not meet at a clearness index of 0.35, where dni falls
  as ghi rises (thm).
* Scaling: wvm raises for a step above 4096 s (thm); NaN variability ratio if the site count is 0.
* Location/atmosphere: Location.tz rejects numpy integers; Location.get_airmass rejects gueymard2003 and is case-sensitive
  (thm); youngirvine1967 is negative beyond about 88 degrees; kastenyoung1989 is not monotone below 0.016 degrees;
  windspeed_powerlaw raises for a negative height ratio with Python scalars.
* Temperature: `_get_sample_intervals` uses Timedelta.seconds, so daily data divide by zero in prilliman; prilliman's window
  excludes the current sample; fuentes' radicand can be negative for a low INOCT.
* Shading: masking_angle_passias returns 0 for NaN.
* IAM: physical exceeds 1 somewhere iff n > 2+sqrt(3) (thm); physical(300) = physical(60); convert physical->physical is an
  UnboundLocalError; `_residual` is NaN if a measured iam is NaN even outside [0, 90]; the marion sky integral is 0 for tilts
  within half a cell of 180.
* Single diode: bishop88's breakdown gradient misses a chain-rule factor (thm); bishop88 is NaN beyond breakdown_voltage even
  with breakdown_factor=0; singlediode.batzelis returns zeros for a NaN photocurrent; `_lambertw_i_from_v` does not handle
  overflow; lambertw_pvlib(inf) is NaN; calcparams_pvsyst does not reproduce R_sh_ref when R_sh_0 exp(-R_sh_exp) > R_sh_ref (thm).
* Single diode solvers: method='chandrupatla' does not cut its bracket at NsVbi as brentq and newton do; with recombination and
  estimate_voc > NsVbi the bracket contains a pole and a second, unphysical root (thm).
* Spectrum: caballero/polo technology names are case-sensitive.
* PVSystem: Array.get_cell_temperature names are case-sensitive while get_iam/get_ac are not; inferred
  temperature_model_parameters alias the module-level table; racking "insulated_back" with glass_glass falls to pvsyst 'insulated'.
* ModelChain: dc_model='singlediode' passes validation but sets nothing; the ac_model test is a substring test; the
  temperature_model setter stores a rejected model before raising; an explicit aoi_model is not checked against parameters;
  complete_irradiance on a bare DataFrame fails after a run on a 1-tuple; stale results survive
  run_model_from_effective_irradiance/poa; one frame lacking `albedo` or `poa_global` changes all arrays; pvwatts_losses scales
  voltages and currents too.
* Clear sky: haurwitz(NaN) = 0; ineichen dhi can be negative for turbidity < ln 2; bird's Rayleigh transmittance exceeds 1 at
  airmass about 29-30 and its dni is not zeroed below the horizon; detect_clearsky with max_iterations=0 is an
  UnboundLocalError, and its mean/max difference components use the new alpha while the flags use the old one.
* Solar position: the analytical azimuth at zero hour angle is always south; hour_angle and geometric rise/set are off by 15
  degrees per hour of a clock change on that day, and raise if local midnight is missing or ambiguous; geometric rise/set moves
  by a day when the longitude is given a turn away, 255 for -105 (thm); ephemeris' day count is
  off by one in 1900 and from 2101; one NaT makes its Kepler loop stop for all rows; nrel_c gets temperature as elevation
  (thm) and drops fractions of a second; spa_python atmos_refract=0 means 0.5667 (thm); SPA refraction is NaN at -5.11 degrees
  (thm) and slightly negative near the zenith (thm); SPA's unwrap loses a degree for daily changes of 1 degree or more (thm);
  julian_day_dt switches calendars half a day early (thm); calculate_deltat(NaN) = 0; solar_position with sst and esd leaves
  rows uninitialised in numba mode; reloading spa deletes a user-set PVLIB_USE_NUMBA (thm), and a broken numba import leaves it '1'.
* ModelChain: with the SAPM model and a module whose C2 is not positive or C3 not negative, AC power at night is NaN instead of minus
  the night tare, for the whole system (thm); so it is if one Array is on a single-axis tracker, at every time the sun is set (thm).
* Bifacial: a NaN projected zenith is reported as full shade (thm); the default 10 rows are too few for gcr near 1 with a low
  sun (thm); `_shaded_fraction` is 0 when the sun is behind the array and the shadow is narrower than the pitch;
  infinite_sheds treats any unknown model name as isotropic (thm); exchanging the bounds of vf_row_sky_2d_integ gives the
  complement (thm); power_mismatch_deline treats fill_factor=0 as None (thm).
* IV tools: `_numdiff`'s second derivative is not divided by the node products and has two index errors, so a constant can
  get second derivative -30 (thm); the Schumaker spline divides the coefficient after an inserted knot by the whole interval, so
  it jumps at the next data point (thm); fit_sandia_simple raises TypeError when no point is below vlim*v_oc and
  ZeroDivisionError when no point is below the line (thm), not the documented RuntimeError; `_fit_sandia_cocontent` omits the
  series resistance in the exponential that gives iph (thm).
* Sandia single diode fit: when the Lambert-W argument overflows, `_calc_theta_phi_exact` iterates on an alias of the array it
  reads, so the result is not Newton's: more than 9 below the true value (thm), and the series resistance misses the maximum
  power point (thm); a NaN in one curve stops the saturation-current refinement of all curves (thm); the filter and refinement
  of `_initial_iv_params` run inside its loop over curves, so placeholders of curves not yet reached are refined (thm); the
  third argument of np.logical_and / np.logical_or is `out`, so the NaN masks passed there are ignored in `_extract_sdm_params`
  and `_fit_pvsyst_sandia_gamma`.
* Module parameters: EgRef from `fit_desoto_sandia` is 1.17 to 1.18 times the band gap the curves were made with (the sign of the
  band-gap temperature term; the repository's own test expects 1.311 for data made with 1.121) (thm); with one irradiance above
  400 W/m² only it raises IndexError (thm); `fit_desoto_batzelis`' curve misses all three datasheet points by the terms it neglects
  (thm); `fit_pvsyst_iec61853_sandia_2025` raises ValueError unless exactly one point is near standard conditions, when `alpha_sc` is
  not given (thm), and its steps neglect the -1 of the diode equation inconsistently.

## Properties: what is modelled and how each is proved

<!-- BEGIN TABLE -->

### C01 Sandia inverter: AC output limits

Model `_sandia_eff`, `_sandia_limits`, `sandia` over `Fl`; case analysis.

Status: proved.
Theorems: `Pvlib.Props.Inverter.sandia_le_Paco`, `Pvlib.Props.Inverter.sandia_night`, `Pvlib.Props.Inverter.sandia_operating`, `Pvlib.Props.Inverter.sandia_nan`.

### C02 Sandia inverter: rated point and start-up point

Field arithmetic on the finite reduction of the model.

Status: proved.
Theorems: `Pvlib.Props.Inverter.sandia_rated`, `Pvlib.Props.Inverter.sandia_startup`.

### C03 sandia_multi agrees with sandia and ignores input order

Model the loop as a fold; permutation invariance by induction over `List.Perm`.

Status: proved.
Theorems: `Pvlib.Props.Inverter.sandiaMulti_error_iff`, `Pvlib.Props.Inverter.sandiaMulti_error`, `Pvlib.Props.Inverter.sandiaMulti_perm`, `Pvlib.Props.Inverter.sandiaMulti_value`, `Pvlib.Props.Inverter.sandiaMulti_same_voltage`, `Pvlib.Props.Inverter.sandiaMulti_dark`.

### C04 ADR inverter output range

Model adr over `Fl`, nanmax over lists; case analysis.

Status: proved.
Theorems: `Pvlib.Props.Inverter.adr_range`, `Pvlib.Props.Inverter.adr_out_of_window`, `Pvlib.Props.Inverter.adr_night`, `Pvlib.Props.Inverter.adr_operating`.

### C05 PVWatts inverter: range, zero, NaN, energy conservation, monotonicity

Model incl. the `where=` guarded division; nlinarith for monotonicity.

Status: proved.
Theorems: `Pvlib.Props.Inverter.pvwatts_value`, `Pvlib.Props.Inverter.pvwatts_zero`, `Pvlib.Props.Inverter.pvwatts_range`, `Pvlib.Props.Inverter.pvwatts_le_dc`, `Pvlib.Props.Inverter.pvwatts_mono`, `Pvlib.Props.Inverter.pvwatts_not_mono_everywhere`, `Pvlib.Props.Inverter.pvwattsMulti_perm`, `Pvlib.Props.Inverter.pvwattsMulti_eq`.

### C06 Transformer model solves its loss balance

Quadratic identity with Real.sqrt, separate treatment of load_loss = 0.

Status: proved.
Theorems: `Pvlib.Props.Inverter.transformer_balance`, `Pvlib.Props.Inverter.transformer_le_input`, `Pvlib.Props.Inverter.transformer_strictMono`, `Pvlib.Props.Inverter.transformer_nan`.

### C07 NREL snow coverage equals a step-by-step physical recurrence

Model vectorised pipeline on lists, refinement to a recurrence by induction.

Status: proved.
Theorems: `Pvlib.Props.Snow.fullyCovered_iff`, `Pvlib.Props.Snow.coverage_recurrence`.

### C08 NREL snow coverage stays within [0,1], resets to 1 on snowfall and never grows otherwise

Invariant over the recurrence of C07.

Status: proved.
Theorems: `Pvlib.Props.Snow.coverage_range`, `Pvlib.Props.Snow.coverage_range'`, `Pvlib.Props.Snow.coverage_new_snow`, `Pvlib.Props.Snow.coverage_decreases`, `Pvlib.Props.Snow.coverage_bare_ground`.

### C09 dc_loss_nrel rounds coverage up to whole strings

Int.ceil lemmas.

Status: proved.
Theorems: `Pvlib.Props.Snow.dcLoss_spec`, `Pvlib.Props.Snow.dcLoss_mono`.

### C10 Townsend snow loss is a fraction and is zero with no snow

Model with List.rotate; clip range.

Status: proved.
Theorems: `Pvlib.Props.Snow.townsend_range`, `Pvlib.Props.Snow.townsend_no_snow`.

### C11 Kimber soiling equals a day-by-day recurrence with cleaning events

List model of cumsum/ffill; induction.

Status: proved.
Theorems: `Pvlib.Props.Soiling.kimber_recurrence`, `Pvlib.Props.Soiling.kimber_range`, `Pvlib.Props.Soiling.rollingSum_fin`.

### C12 HSU soiling ratio range and reset

List model; erf defined as an integral, bounds proved from the Gaussian integral.

Status: proved.
Theorems: `Pvlib.Props.Soiling.hsu_value`, `Pvlib.Props.Soiling.hsu_cleaned`, `Pvlib.Props.Soiling.hsu_range`, `Pvlib.Props.Soiling.hsu_decreases`, `Pvlib.Props.Soiling.hsuMass_eq`.

### C13 Single-axis tracker respects its rotation limits and reports NaN at night

Model the whole function for one sample over `Fl`.

Status: proved.
Theorems: `Pvlib.Props.Tracking.singleaxis_night`, `Pvlib.Props.Tracking.singleaxis_ranges`, `Pvlib.Props.Tracking.singleaxis_day`.

### C14 Tracker surface orientation is the orientation of its normal

Complex.arg polar form.

Status: proved.
Theorems: `Pvlib.Props.Tracking.trackerNormal_unit`, `Pvlib.Props.Tracking.trackerNormal_perp`, `Pvlib.Props.Tracking.surfaceOrientation_normal`.

### C15 True tracking minimises the angle of incidence

cos(aoi) = R cos(theta - omega) identity.

Status: proved.
Theorems: `Pvlib.Props.Tracking.sun_dot_normal`, `Pvlib.Props.Tracking.trueTracking_optimal`.

### C16 Backtracking eliminates row-to-row shade

Substitute the arccos correction into the shaded-fraction formula.

Status: proved.
Theorems: `Pvlib.Props.Tracking.singleaxis_backtrack`, `Pvlib.Props.Tracking.backtrack_no_shade`, `Pvlib.Props.Tracking.backtrack_tight`, `Pvlib.Props.Tracking.backtrack_towards_horizontal`.

### C17 aoi_projection is the dot product of the sun and normal unit vectors

Trigonometric identities, Cauchy-Schwarz.

Status: proved.
Theorems: `Pvlib.Props.Geometry.aoiProjection_dot`, `Pvlib.Props.Geometry.aoiProjection_range`, `Pvlib.Props.Geometry.aoiProjection_nan_iff`, `Pvlib.Props.Geometry.aoiProjection_rotate`, `Pvlib.Props.Geometry.aoiProjection_turn`, `Pvlib.Props.Geometry.aoiProjection_swap`, `Pvlib.Props.Geometry.aoi_spec`, `Pvlib.Props.Geometry.aoi_range`, `Pvlib.Props.Geometry.aoi_facing`, `Pvlib.Props.Geometry.aoi_horizontal`.

### C18 Beam component is non-negative and is dni*cos(aoi) in front of the plane

Case analysis.

Status: proved.
Theorems: `Pvlib.Props.Geometry.beam_value`, `Pvlib.Props.Geometry.beam_nonneg`, `Pvlib.Props.Geometry.beam_behind`, `Pvlib.Props.Geometry.beam_le_dni`, `Pvlib.Props.Geometry.beam_eq_poa_direct`.

### C19 Plane-of-array components add up

Direct from the model of get_total_irradiance with every sky model as a case.

Status: proved.
Theorems: `Pvlib.Props.Transposition.total_sums`, `Pvlib.Props.Transposition.total_direct`, `Pvlib.Props.Transposition.skyDiffuse_ok_iff`, `Pvlib.Props.Transposition.skyDiffuse_error`.

### C20 Sky-diffuse components sum to the total

Algebra; negative witness for perez_driesse.

Status: proved. The code violates the sum for perez_driesse when the total is clipped at zero; the counterexample is proved.
Theorems: `Pvlib.Props.Transposition.isotropic_components`, `Pvlib.Props.Transposition.haydavies_components`, `Pvlib.Props.Transposition.reindl_components`, `Pvlib.Props.Transposition.perez_components`, `Pvlib.Props.Transposition.perezDriesse_components`, `Pvlib.Props.Transposition.perezDriesse_components_shipped`, `Pvlib.Props.Transposition.pdSpline_convex`, `Pvlib.Props.Transposition.perezDriesse_components_counterexample`.

### C21 A horizontal plane sees the whole diffuse sky

Per-model algebra.

Status: proved. klucher does not satisfy it (proved).
Theorems: `Pvlib.Props.Transposition.isotropic_horizontal`, `Pvlib.Props.Transposition.king_horizontal`, `Pvlib.Props.Transposition.haydavies_horizontal`, `Pvlib.Props.Transposition.reindl_horizontal`, `Pvlib.Props.Transposition.perez_horizontal`, `Pvlib.Props.Transposition.perezDriesse_horizontal_shipped`, `Pvlib.Props.Transposition.ground_horizontal`, `Pvlib.Props.Transposition.total_horizontal`, `Pvlib.Props.Transposition.klucher_horizontal_gt`.

### C22 Sky diffuse is non-negative

Positivity arguments per model.

Status: proved.
Theorems: `Pvlib.Props.Transposition.perezDriesse_no_diffuse`, `Pvlib.Props.Transposition.skyDiffuse_nonneg`.

### C23 GHI decomposition closes

Shared finishing step modelled once per function; algebra.

Status: proved.
Theorems: `Pvlib.Props.Decomposition.erbs_closes`, `Pvlib.Props.Decomposition.orgillHollands_closes`, `Pvlib.Props.Decomposition.boland_closes`, `Pvlib.Props.Decomposition.erbsDriesse_closes`, `Pvlib.Props.Decomposition.erbsDriesse_error_iff`, `Pvlib.Props.Decomposition.louche_closes`, `Pvlib.Props.Decomposition.default_threshold_ok`.

### C24 Diffuse fraction is a fraction

Polynomial bounds by nlinarith / interval splitting.

Status: proved.
Theorems: `Pvlib.Props.Decomposition.erbs_fraction`, `Pvlib.Props.Decomposition.orgillHollands_fraction`, `Pvlib.Props.Decomposition.boland_fraction`, `Pvlib.Props.Decomposition.erbsDriesse_fraction`.

### C25 Clearness and clear-sky indices are bounded

Case analysis on `Fl`.

Status: proved.
Theorems: `Pvlib.Props.Decomposition.clearskyIndex_nan_iff`, `Pvlib.Props.Decomposition.clearskyIndex_value`, `Pvlib.Props.Decomposition.clearskyIndex_range`, `Pvlib.Props.Decomposition.clearnessIndex_range`, `Pvlib.Props.Decomposition.clearnessIndexZI_range`, `Pvlib.Props.Decomposition.clearnessIndex_value`, `Pvlib.Props.Decomposition.clearnessIndex_negative`, `Pvlib.Props.Decomposition.ktPrimeFactor_range`.

### C26 DIRINT bins cover the domain exactly once

Model sequential masked assignments; case analysis.

Status: proved. finding: dirint is NaN for zenith > 90 where disc is 0, and NaN for a length-1 series with use_delta_kt_prime
Theorems: `Pvlib.Props.Decomposition.ktPrimeBin_spec`, `Pvlib.Props.Decomposition.zenithBin_spec`, `Pvlib.Props.Decomposition.wBin_spec`, `Pvlib.Props.Decomposition.deltaBin_spec`, `Pvlib.Props.Decomposition.dirintCoeffs_entry`, `Pvlib.Props.Decomposition.dirintCoeffs_nan_iff`, `Pvlib.Props.Decomposition.dirintTable_range`, `Pvlib.Props.Decomposition.dirint_day`, `Pvlib.Props.Decomposition.dirint_night`, `Pvlib.Props.Decomposition.dirint_single`, `Pvlib.Props.Decomposition.disc_nonneg`, `Pvlib.Props.Decomposition.disc_bad`, `Pvlib.Props.Decomposition.disc_day`.

### C27 complete_irradiance fills in exactly one missing component, consistently

Options and case analysis.

Status: proved.
Theorems: `Pvlib.Props.Decomposition.complete_error_iff`, `Pvlib.Props.Decomposition.complete_keeps`, `Pvlib.Props.Decomposition.complete_closes`, `Pvlib.Props.Decomposition.complete_dni`, `Pvlib.Props.Decomposition.complete_dni_closes`.

### C28 Extraterrestrial radiation stays near the solar constant

Bounds on sin and cos.

Status: proved.
Theorems: `Pvlib.Props.Decomposition.extra_near_constant`, `Pvlib.Props.Decomposition.extra_error_iff`, `Pvlib.Props.Decomposition.extra_periodic`.

### C29 gti_dirint returns the best iterate

Loop model with abstract step; induction.

Status: proved. the numerical content of a pass is an arbitrary function
Theorems: `Pvlib.Props.GtiDirint.gtiDirint_guesses`, `Pvlib.Props.GtiDirint.gtiDirint_best`, `Pvlib.Props.GtiDirint.gtiDirint_stops`, `Pvlib.Props.GtiDirint.gtiDirint_error_iff`.

### C30 Shaded fraction and Martinez loss are fractions

Clip range; algebra.

Status: proved.
Theorems: `Pvlib.Props.Shading.shadedFraction_range`, `Pvlib.Props.Shading.martinez_value`, `Pvlib.Props.Shading.martinez_range`, `Pvlib.Props.Shading.martinez_unshaded`, `Pvlib.Props.Shading.martinez_mono`, `Pvlib.Props.Shading.martinez_night`.

### C31 Masking angle geometry

Trigonometry.

Status: proved.
Theorems: `Pvlib.Props.Shading.maskingAngle_spec`, `Pvlib.Props.Shading.maskingAngle_top`, `Pvlib.Props.Shading.maskingAngle_antitone`, `Pvlib.Props.Shading.groundAngle_spec`, `Pvlib.Props.Shading.passias_value`, `Pvlib.Props.Shading.passias_range`, `Pvlib.Props.Shading.passias_mono`.

### C32 Golden-section search terminates and stays in the bracket

Loop model with well-founded argument on interval length; induction.

Status: proved. exact arithmetic: with floats the loop may not reach atol when atol is below the spacing of doubles at the interval
Theorems: `Pvlib.Props.Golden.golden_error_iff`, `Pvlib.Props.Golden.golden_terminates`, `Pvlib.Props.Golden.golden_bracket`, `Pvlib.Props.Golden.golden_value`, `Pvlib.Props.Golden.golden_maximiser`.

### C33 Degrees-to-index lookup is total, in range and nearest

Rational arithmetic with rounding half to even.

Status: proved.
Theorems: `Pvlib.Props.ToolsMisc.latIndex_spec`, `Pvlib.Props.ToolsMisc.lonIndex_spec`, `Pvlib.Props.ToolsMisc.index_exists`, `Pvlib.Props.ToolsMisc.index_bad_name`, `Pvlib.Props.ToolsMisc.index_nan`.

### C34 Keyword helpers pick exactly the requested parameters

Association-list model; induction.

Status: proved.
Theorems: `Pvlib.Props.ToolsMisc.buildKwargs_get`, `Pvlib.Props.ToolsMisc.buildKwargs_keys`, `Pvlib.Props.ToolsMisc.buildArgs_ok`, `Pvlib.Props.ToolsMisc.buildArgs_error`.

### C35 Dublin Julian day round trip

Integers (microseconds) and rationals.

Status: proved. time-zone display is abstract: an aware datetime is its UTC instant and a zone name
Theorems: `Pvlib.Props.ToolsMisc.djd_roundtrip`, `Pvlib.Props.ToolsMisc.djd_roundtrip'`, `Pvlib.Props.ToolsMisc.djd_order`, `Pvlib.Props.ToolsMisc.djd_epoch`.

### C36 WVM wavelet decomposition is exact

Telescoping sum over list of scales.

Status: proved. the numerical minimiser recovering the site count is a parameter; finding: wvm raises for a time step above 4096 s
Theorems: `Pvlib.Props.Scaling.wavelet_sum`, `Pvlib.Props.Scaling.smoothed_vr_one`, `Pvlib.Props.Scaling.smoothed_const`, `Pvlib.Props.Scaling.smooth_damps`, `Pvlib.Props.Scaling.vr_range`, `Pvlib.Props.Scaling.vr_zero_sites`, `Pvlib.Props.Scaling.scales_pos_iff`, `Pvlib.Props.Scaling.wvm_spec`.

### C37 Huld / ADR / Batzelis models reproduce the nameplate at reference conditions

Algebra on the finite reduction.

Status: proved.
Theorems: `Pvlib.Props.PvArray.adr_stc`, `Pvlib.Props.PvArray.adr_dark`, `Pvlib.Props.PvArray.adr_finite`, `Pvlib.Props.PvArray.huld_stc`, `Pvlib.Props.PvArray.huld_dark`, `Pvlib.Props.PvArray.huld_proportional`, `Pvlib.Props.PvArray.huld_valueError_iff`, `Pvlib.Props.PvArray.batzelis_stc`, `Pvlib.Props.PvArray.batzelis_dark`, `Pvlib.Props.PvArray.batzelis_power`, `Pvlib.Props.PvArray.batzelis_nan`.

### C38 Inland-water albedo parameter contract and range

Option cases and rpow bounds.

Status: proved.
Theorems: `Pvlib.Props.PvArray.dvoracek_valueError_iff`, `Pvlib.Props.PvArray.dvoracek_range`, `Pvlib.Props.PvArray.dvoracek_antitone`, `Pvlib.Props.PvArray.dvoracek_named`.

### C39 Location time-zone setter

State-machine model with string formatting.

Status: proved.
Theorems: `Pvlib.Props.Location.setTz_int`, `Pvlib.Props.Location.setTz_float_whole`, `Pvlib.Props.Location.setTz_float_bad`, `Pvlib.Props.Location.setTz_other`, `Pvlib.Props.Location.setTz_name`, `Pvlib.Props.Location.setTz_atomic`, `Pvlib.Props.Location.run_idempotent`, `Pvlib.Props.Location.run_last`.

### C40 lookup_altitude range

Raster as an arbitrary function to Fin 256.

Status: proved.
Theorems: `Pvlib.Props.ToolsMisc.lookupAltitude_spec`, `Pvlib.Props.ToolsMisc.lookupAltitude_error`.

### C41 Slope-aware tracker angles are geometrically exact

Vectors; polynomial identities in sines and cosines.

Status: proved.
Theorems: `Pvlib.Props.Tracking.axisTilt_in_slope`, `Pvlib.Props.Tracking.crossAxisTilt_parallel`, `Pvlib.Props.Tracking.slope_tracker_parallel`.

### C42 Averaged masking angle is the average masking angle

Explicit antiderivative; fundamental theorem of calculus.

Status: proved.
Theorems: `Pvlib.Props.Shading.passias_always_number`, `Pvlib.Props.Shading.maskingAnglePassias_average`, `Pvlib.Props.Shading.maskingAnglePassias_flat`, `Pvlib.Props.Shading.maskingAngle_eq`.

### C43 Liu-Jordan irradiance closes

Case split on the sun above the horizon.

Status: proved.
Theorems: `Pvlib.Props.Decomposition.liujordan_closes`, `Pvlib.Props.Decomposition.campbellNorman_closes`, `Pvlib.Props.Decomposition.campbellNorman_night`.

### C44 Diffuse PAR fraction is physical

Real algebra.

Status: proved.
Theorems: `Pvlib.Props.Decomposition.spitters_range`.

### C45 Relative humidity and dew point are inverse to each other

Finite reduction of both functions to exp/log of the Magnus exponent; field arithmetic.

Status: proved.
Theorems: `Pvlib.Props.Atmosphere.tdew_of_rh_of_tdew`, `Pvlib.Props.Atmosphere.rh_of_tdew_of_rh`, `Pvlib.Props.Atmosphere.rh_le_100_iff`.

### C46 Wind-speed power law

Case analysis on the arguments; laws of real powers.

Status: proved.
Theorems: `Pvlib.Props.Atmosphere.windspeed_contract`, `Pvlib.Props.Atmosphere.windspeed_value`, `Pvlib.Props.Atmosphere.windspeed_surface`, `Pvlib.Props.Atmosphere.windspeed_surface_types`, `Pvlib.Props.Atmosphere.windspeed_other_types`, `Pvlib.Props.Atmosphere.windspeed_documented_differs`, `Pvlib.Props.Atmosphere.windspeed_laws`, `Pvlib.Props.Atmosphere.windspeed_not_neg`.

### C47 Angstrom turbidity fit and extrapolation are inverse

exp/log algebra.

Status: proved.
Theorems: `Pvlib.Props.Atmosphere.angstrom_roundtrip`, `Pvlib.Props.Atmosphere.angstrom_compose`.

### C48 Relative airmass: accepted models, night, positivity

One lemma per formula.

Status: proved.
Theorems: `Pvlib.Props.Atmosphere.airmass_accepts`, `Pvlib.Props.Atmosphere.airmass_night`, `Pvlib.Props.Atmosphere.airmass_positive`, `Pvlib.Props.Atmosphere.airmass_simple`, `Pvlib.Props.Atmosphere.airmass_youngirvine_sign`, `Pvlib.Props.Atmosphere.absolute_airmass`.

### C49 Location.get_airmass uses the zenith each model is defined for

Case analysis on the name.

Status: proved.
Theorems: `Pvlib.Props.Atmosphere.location_get_airmass`, `Pvlib.Props.Atmosphere.gueymard2003_rejected`.

### C50 Pressure, altitude, precipitable water and Linke turbidity are monotone

Monotonicity of real powers and exp.

Status: proved.
Theorems: `Pvlib.Props.Atmosphere.alt2pres_antitone`, `Pvlib.Props.Atmosphere.pres2alt_antitone`, `Pvlib.Props.Atmosphere.gueymard94_pw_laws`, `Pvlib.Props.Atmosphere.kasten96_laws`.

### C51 Steady-state cell temperature models

Exhibit the resistance; monotonicity of exp and of 1/x.

Status: proved.
Theorems: `Pvlib.Props.Temperature.steady_resistance`, `Pvlib.Props.Temperature.steady_no_sun`, `Pvlib.Props.Temperature.steady_mono`, `Pvlib.Props.Temperature.sapm_cell_at_reference`, `Pvlib.Props.Temperature.steady_nan`.

### C52 faiman_rad closes its heat balance; ross takes exactly one parameter

Field algebra; case analysis.

Status: proved.
Theorems: `Pvlib.Props.Temperature.faimanRad_none`, `Pvlib.Props.Temperature.faimanRad_balance`, `Pvlib.Props.Temperature.faimanRad_sky`, `Pvlib.Props.Temperature.ross_contract`, `Pvlib.Props.Temperature.ross_noct`.

### C53 noct_sam: array height contract, standoff table, NOCT conditions

Case analysis, monotonicity of products.

Status: proved.
Theorems: `Pvlib.Props.Temperature.standoff_table`, `Pvlib.Props.Temperature.noctSam_contract`, `Pvlib.Props.Temperature.noctSam_at_noct`, `Pvlib.Props.Temperature.noctSam_laws`, `Pvlib.Props.Temperature.noctSam_height`, `Pvlib.Props.Temperature.noctSam_effective`.

### C54 GenericLinearModel: every history of use_* calls behaves like the source model

State machine; induction over the operation list, field algebra.

Status: proved.
Theorems: `Pvlib.Props.Temperature.glm_parameters`, `Pvlib.Props.Temperature.glm_fresh`, `Pvlib.Props.Temperature.glm_faiman`, `Pvlib.Props.Temperature.glm_pvsyst`, `Pvlib.Props.Temperature.glm_noct_sam`, `Pvlib.Props.Temperature.glm_sapm`, `Pvlib.Props.Temperature.glm_conversions`.

### C55 prilliman is an exponentially weighted average of the preceding 20 minutes

Model the Hankel windowing on positions; re-index to lags; convexity.

Status: proved.
Theorems: `Pvlib.Props.Prilliman.prilliman_errors`, `Pvlib.Props.Prilliman.prilliman_coarse`, `Pvlib.Props.Prilliman.prilliman_value`, `Pvlib.Props.Prilliman.average_bounds`, `Pvlib.Props.Prilliman.prilliman_constant`, `Pvlib.Props.Prilliman.prilliman_causal`.

### C56 fuentes: each step is bracketed by previous module, air and sky temperature

Write the exponential update as a convex combination plus a non-negative solar term; induct over the 10 inner iterations and over samples.

Status: proved. Under the Physical conditions on NOCT, emissivity and absorption (met by the defaults for INOCT from 45 to 69 C); outside them the ground-temperature radicand can be negative and the code returns NaN.
Theorems: `Pvlib.Props.Fuentes.fuentes_step`, `Pvlib.Props.Fuentes.fuentes_bounds`, `Pvlib.Props.Fuentes.skyC_le`.

### C57 perez evaluates the published equation with the published clearness bins

Case split over the bins against a separate edge list; evaluate the rest by ring normalisation.

Status: proved.
Theorems: `Pvlib.Props.Transposition.perez_formula`.

### C58 ashrae, martin_ruiz, schlick and sapm incidence angle modifiers

Write each as a monotone function of max(0, cos aoi).

Status: proved.
Theorems: `Pvlib.Props.Iam.ashrae_isIam`, `Pvlib.Props.Iam.ashrae_total`, `Pvlib.Props.Iam.martinRuiz_isIam`, `Pvlib.Props.Iam.schlick_isIam`, `Pvlib.Props.Iam.sapm_value`, `Pvlib.Props.Iam.sapm_nan`.

### C59 physical (Fresnel) incidence angle modifier

Reduce Fresnel transmittances to explicit real functions of the cosine and prove monotonicity and the bound.

Status: proved. For n > 2+sqrt 3 (no glass) the code can return values above 1; for |aoi| beyond 180 degrees it is periodic, not zero.
Theorems: `Pvlib.Props.IamPhysical.physical_isIam`, `Pvlib.Props.IamPhysical.physical_coated`, `Pvlib.Props.IamPhysical.physical_null_coating`.

### C60 martin_ruiz_diffuse factors

Bound the exponent; symmetry of sine and cosine.

Status: proved.
Theorems: `Pvlib.Props.IamDiffuse.martinRuizDiffuse_range`, `Pvlib.Props.IamDiffuse.martinRuizDiffuse_swap`.

### C61 interp reproduces its measured points and respects the accepted methods

Induction over the table of points.

Status: proved. The quadratic and cubic splines of scipy are abstract; the linear one is modelled.
Theorems: `Pvlib.Props.IamMarion.interp_contract`, `Pvlib.Props.IamMarion.linSpline_node`, `Pvlib.Props.IamMarion.linSpline_range`, `Pvlib.Props.IamMarion.interp_linear`.

### C62 Marion diffuse integration is a weighted average of the given modifier

Weighted sums over lists with non-negative weights; reindexing.

Status: proved.
Theorems: `Pvlib.Props.IamMarion.marion_errors`, `Pvlib.Props.IamMarion.marion_average`, `Pvlib.Props.IamMarion.marion_sky`, `Pvlib.Props.IamMarion.marion_ground_horizontal`, `Pvlib.Props.IamMarion.marion_swap`, `Pvlib.Props.IamMarion.marion_nan`, `Pvlib.Props.IamMarion.marionDiffuse_contract`.

### C63 schlick_diffuse factors conserve the hemisphere average

Algebraic identity; interval integral of a polynomial.

Status: proved.
Theorems: `Pvlib.Props.IamDiffuse.schlickDiffuse_conserve`, `Pvlib.Props.IamDiffuse.schlickDiffuse_swap`, `Pvlib.Props.IamDiffuse.schlickDiffuse_special`, `Pvlib.Props.IamDiffuse.hemisphere_average`.

### C64 iam.convert and iam.fit: accepted calls, bounds, misfit and recovery

Optimiser as a parameter with a stated contract; case analysis; sums of non-negative terms.

Status: proved. scipy.optimize.minimize is a parameter that respects its bounds; convert physical->physical fails with UnboundLocalError in the code and in the model.
Theorems: `Pvlib.Props.IamFit.convert_unknown`, `Pvlib.Props.IamFit.convert_params`, `Pvlib.Props.IamFit.convert_martinRuiz_nonpos`, `Pvlib.Props.IamFit.convert_physical_physical`, `Pvlib.Props.IamFit.convert_single`, `Pvlib.Props.IamFit.convert_martinRuiz_physical`, `Pvlib.Props.IamFit.fixedN`, `Pvlib.Props.IamFit.intercept_zero`, `Pvlib.Props.IamFit.convert_ashrae_physical`, `Pvlib.Props.IamFit.fit_contract`, `Pvlib.Props.IamFit.residual_only_front`, `Pvlib.Props.IamFit.residual_zero_iff`, `Pvlib.Props.IamFit.returned_is_minimised`, `Pvlib.Props.IamFit.fit_recovers_ashrae`.

### C65 bishop88 points satisfy the single diode equation

Evaluate the model into reals; compare with a separately stated equation.

Status: proved.
Theorems: `Pvlib.Props.SingleDiode.bishop88_point`, `Pvlib.Props.SingleDiode.bishop88_solves`, `Pvlib.Props.SingleDiode.solves_iff`, `Pvlib.Props.SingleDiode.bishop88_beyond_breakdown`, `Pvlib.Props.SingleDiode.bishop88_nan`.

### C66 bishop88 gradients are the derivatives

HasDerivAt of the returned functions.

Status: proved. The breakdown part of the gradient is proved wrong unless breakdown_voltage=-1 (finding).
Theorems: `Pvlib.Props.SingleDiode.gradient_correct_iff`, `Pvlib.Props.SingleDiode.gradients_correct`.

### C67 i_from_v and v_from_i return the unique solution

Monotonicity, intermediate value theorem; root finder as a parameter.

Status: proved. Root finders are parameters with their documented contract.
Theorems: `Pvlib.Props.SingleDiode.current_strictAnti`, `Pvlib.Props.SingleDiode.voltage_strictMono`, `Pvlib.Props.SingleDiode.solution_unique`, `Pvlib.Props.SingleDiode.voc_nonneg`, `Pvlib.Props.SingleDiode.voc_bound`, `Pvlib.Props.SingleDiode.current_zero_nonneg`, `Pvlib.Props.SingleDiode.iFromV_unique`, `Pvlib.Props.SingleDiode.vFromI_unique`, `Pvlib.Props.SingleDiode.method_names`, `Pvlib.Props.SingleDiode.brentq_iFromV`, `Pvlib.Props.SingleDiode.brentq_vFromI`.

### C68 bishop88_mpp is the maximum power point

dP/dV strictly decreasing where voltage is non-negative; calculus.

Status: proved.
Theorems: `Pvlib.Props.SingleDiode.mpp_is_max`, `Pvlib.Props.SingleDiode.brentq_mpp`, `Pvlib.Props.SingleDiode.exists_brackets`.

### C69 Lambert W solutions solve the single diode equation and invert each other

Algebra with w e^w = x; uniqueness from C67.

Status: proved. The Lambert W function is a parameter with its defining equation; C70 bounds the error of pvlib's approximation.
Theorems: `Pvlib.Props.LambertW.diode_unique`, `Pvlib.Props.LambertW.exists_isLambertW`, `Pvlib.Props.LambertW.exists_isLogLambertW`, `Pvlib.Props.LambertW.iFromV_solves`, `Pvlib.Props.LambertW.vFromI_solves`, `Pvlib.Props.LambertW.vFromI_noShunt`, `Pvlib.Props.LambertW.roundtrip`, `Pvlib.Props.LambertW.roundtrip'`, `Pvlib.Props.LambertW.agrees_with_bishop88`, `Pvlib.Props.LambertW.invalid_nan`.

### C70 accuracy of pvlib's own Lambert W

Error recurrences: Newton from below is quadratic, Halley cubic, with bounds uniform in the argument.

Status: proved. Truncation error in exact arithmetic; rounding is not modelled.
Theorems: `Pvlib.Props.LambertW.logLambertw_accuracy`, `Pvlib.Props.LambertW.lambertwPvlib_accuracy`, `Pvlib.Props.LambertW.lambertwPvlib_invalid`, `Pvlib.Props.LambertW.iFromV_accuracy`.

### C71 the characteristic points of a single-diode curve (method lambertw)

The curve is concave (joint convexity of the equation), so power is unimodal.

Status: proved. find_minimum is a parameter, exact on unimodal functions.
Theorems: `Pvlib.Props.LambertW.exists_minimisesUnimodal`, `Pvlib.Props.LambertW.mpp_unique`, `Pvlib.Props.LambertW.lambertw_points`, `Pvlib.Props.LambertW.lambertw_dark`, `Pvlib.Props.LambertW.lambertw_tiny`, `Pvlib.Props.LambertW.lambertw_ivcurve`.

### C72 singlediode.batzelis points

Algebra with w e^w = e IL/I0 and the tangent bound of exp.

Status: proved.
Theorems: `Pvlib.Props.LambertW.batzelis_points`, `Pvlib.Props.LambertW.batzelis_dark`.

### C73 spectral mismatch from measured spectra

Induction over the tables; comparison with a real-valued integral and interpolant.

Status: proved.
Theorems: `Pvlib.Props.Spectrum.mismatch_value`, `Pvlib.Props.Spectrum.mismatch_self`, `Pvlib.Props.Spectrum.mismatch_scale`, `Pvlib.Props.Spectrum.mismatch_flat`, `Pvlib.Props.Spectrum.usable_range`, `Pvlib.Props.Spectrum.mismatch_standard`, `Pvlib.Props.Spectrum.value_node`, `Pvlib.Props.Spectrum.value_range`, `Pvlib.Props.Spectrum.value_left`, `Pvlib.Props.Spectrum.value_right`.

### C74 spectral factor models

Evaluate into reals.

Status: proved.
Theorems: `Pvlib.Props.Spectrum.firstsolar_errors`, `Pvlib.Props.Spectrum.firstsolar_value`, `Pvlib.Props.Spectrum.case_insensitive`, `Pvlib.Props.Spectrum.sapmFactor_value`, `Pvlib.Props.Spectrum.sapmFactor_nonneg`, `Pvlib.Props.Spectrum.jrc_value`, `Pvlib.Props.Spectrum.pvspec_value`, `Pvlib.Props.Spectrum.caballero_value`, `Pvlib.Props.Spectrum.caballero_polo_errors`, `Pvlib.Props.Spectrum.polo_clip`, `Pvlib.Props.Spectrum.polo_value`, `Pvlib.Props.Spectrum.firstsolar_modules`, `Pvlib.Props.Spectrum.caballero_modules`, `Pvlib.Props.Spectrum.pvspec_modules`, `Pvlib.Props.Spectrum.jrc_modules`, `Pvlib.Props.Spectrum.polo_modules`.

### C75 spectral response and photon energy

Induction over tables.

Status: proved.
Theorems: `Pvlib.Props.Spectrum.qe_sr_inverse`, `Pvlib.Props.Spectrum.ideal_response`, `Pvlib.Props.Spectrum.normalize_max`, `Pvlib.Props.Spectrum.ape_range`, `Pvlib.Props.Spectrum.ape_negative`.

### C76 De Soto and CEC module parameters

Evaluate into reals; calculus of exp(-E/T).

Status: proved.
Theorems: `Pvlib.Props.CalcParams.desoto_value`, `Pvlib.Props.CalcParams.desoto_reference`, `Pvlib.Props.CalcParams.desoto_linear`, `Pvlib.Props.CalcParams.desoto_sane`, `Pvlib.Props.CalcParams.desoto_sat_strictMono`, `Pvlib.Props.CalcParams.cec_value`.

### C77 PVsyst module parameters

Evaluate into reals.

Status: proved.
Theorems: `Pvlib.Props.CalcParams.pvsyst_value`, `Pvlib.Props.CalcParams.pvsyst_reference`, `Pvlib.Props.CalcParams.pvsyst_reference_shunt`, `Pvlib.Props.CalcParams.pvsyst_shunt`, `Pvlib.Props.CalcParams.pvsyst_sane`, `Pvlib.Props.CalcParams.pvsyst_sat_strictMono`.

### C78 pvsystem.singlediode: all methods agree; power grows with light

Uniqueness of the solution and of the maximum power point (C67, C71).

Status: proved. Numerical routines (Lambert W, root finders, minimiser) are parameters with contracts.
Theorems: `Pvlib.Props.PvDiode.exists_good`, `Pvlib.Props.PvDiode.case_insensitive`, `Pvlib.Props.PvDiode.unknown_method`, `Pvlib.Props.PvDiode.max_power_point_lambertw`, `Pvlib.Props.PvDiode.max_power_point_max`, `Pvlib.Props.PvDiode.singlediode_agree`, `Pvlib.Props.PvDiode.singlediode_brentq`, `Pvlib.Props.PvDiode.from_agree`, `Pvlib.Props.PvDiode.desoto_power`, `Pvlib.Props.PvDiode.current_increases`, `Pvlib.Props.PvDiode.desoto_power_strictMono`.

### C79 Sandia module model

Case analysis including infinities.

Status: proved.
Theorems: `Pvlib.Props.Sapm.sapm_value`, `Pvlib.Props.Sapm.sapm_reference`, `Pvlib.Props.Sapm.sapm_optional`, `Pvlib.Props.Sapm.sapm_optional_reference`, `Pvlib.Props.Sapm.sapm_dark`, `Pvlib.Props.Sapm.sapm_invalid`, `Pvlib.Props.Sapm.sapm_voltages`, `Pvlib.Props.Sapm.sapm_voc_mono`, `Pvlib.Props.Sapm.effective_irradiance`.

### C80 scale_voltage_current_power

Induction over the columns.

Status: proved.
Theorems: `Pvlib.Props.PvLosses.scale_value`, `Pvlib.Props.PvLosses.scale_unknown`, `Pvlib.Props.PvLosses.scale_power`.

### C81 PVWatts DC and losses, ohmic losses

Real arithmetic; induction over the losses.

Status: proved.
Theorems: `Pvlib.Props.PvLosses.pvwatts_dc_value`, `Pvlib.Props.PvLosses.marion_facts`, `Pvlib.Props.PvLosses.pvwatts_dc_reference`, `Pvlib.Props.PvLosses.pvwatts_losses_value`, `Pvlib.Props.PvLosses.pvwatts_losses_default`, `Pvlib.Props.PvLosses.dc_ohmic`.

### C82 combine_loss_factors

Induction over series.

Status: proved. fill_method nearest is not modelled.
Theorems: `Pvlib.Props.PvLosses.ffill_value`, `Pvlib.Props.PvLosses.bfill_exact_value`, `Pvlib.Props.PvLosses.combine_value`, `Pvlib.Props.PvLosses.combine_nan`.

### C83 retrieve_sam and product names

Case analysis; induction over lists.

Status: proved. Reading and parsing the CSV files is not modelled.
Theorems: `Pvlib.Props.PvLosses.retrieve_sam_dispatch`, `Pvlib.Props.PvLosses.translate_value`, `Pvlib.Props.PvLosses.normalize_warnings`.

### C84 Construction of a PVSystem and its Arrays

Case analysis of the constructor.

Status: proved.
Theorems: `Pvlib.Props.PvSystem.system_nonempty`, `Pvlib.Props.PvSystem.system_empty`, `Pvlib.Props.PvSystem.system_keeps`, `Pvlib.Props.PvSystem.system_one`, `Pvlib.Props.PvSystem.system_default`, `Pvlib.Props.PvSystem.array_albedo`.

### C85 PVSystem methods work array by array

Induction over the list of arrays; each method is shown equivalent to a pointwise specification.

Status: proved.
Theorems: `Pvlib.Props.PvSystem.validate_iff`, `Pvlib.Props.PvSystem.validate_error`, `Pvlib.Props.PvSystem.getIrradiance_iff`, `Pvlib.Props.PvSystem.getIam_iff`, `Pvlib.Props.PvSystem.getCellTemperature_iff`, `Pvlib.Props.PvSystem.desoto_iff`, `Pvlib.Props.PvSystem.cec_iff`, `Pvlib.Props.PvSystem.pvsyst_iff`, `Pvlib.Props.PvSystem.sapm_iff`, `Pvlib.Props.PvSystem.pvwattsDc_iff`, `Pvlib.Props.PvSystem.sapmEff_iff`, `Pvlib.Props.PvSystem.firstSolar_iff`, `Pvlib.Props.PvSystem.scale_iff`, `Pvlib.Props.PvSystem.getAoi_eq`, `Pvlib.Props.PvSystem.sapmSpectral_iff`, `Pvlib.Props.PvSystem.dcOhms_iff`, `Pvlib.Props.PvSystem.inferCellType_iff`, `Pvlib.Props.PvSystem.getIrradiance_mismatch`, `Pvlib.Props.PvSystem.getCellTemperature_mismatch`, `Pvlib.Props.PvSystem.perTwo_mismatch`, `Pvlib.Props.PvSystem.pvwattsDc_first_error`, `Pvlib.Props.PvSystem.single_irradiance`, `Pvlib.Props.PvSystem.pvwattsDc_independent`.

### C86 PVSystem.get_ac dispatch

Case analysis.

Status: proved.
Theorems: `Pvlib.Props.ArrayClass.ac_case`, `Pvlib.Props.ArrayClass.ac_unknown`, `Pvlib.Props.ArrayClass.ac_sandia_one`, `Pvlib.Props.ArrayClass.ac_sandia_many`, `Pvlib.Props.ArrayClass.ac_pvwatts`, `Pvlib.Props.ArrayClass.ac_adr_many`, `Pvlib.Props.ArrayClass.ac_adr_one`, `Pvlib.Props.ArrayClass.ac_mismatch`, `Pvlib.Props.ArrayClass.ac_sandia_no_voltage`.

### C87 Inferred temperature parameters and cell type

Case analysis with an independent substring specification.

Status: proved.
Theorems: `Pvlib.Props.ArrayClass.hasSub_iff`, `Pvlib.Props.ArrayClass.temps_given`, `Pvlib.Props.ArrayClass.infer_sapm`, `Pvlib.Props.ArrayClass.infer_other`, `Pvlib.Props.ArrayClass.infer_none`, `Pvlib.Props.ArrayClass.cellType_priority`, `Pvlib.Props.ArrayClass.cellType_accepted`, `Pvlib.Props.ArrayClass.firstSolar_choice`.

### C88 Array cell temperature, IAM and wiring resistance dispatch

Case analysis through a lemma characterising keyword selection.

Status: proved.
Theorems: `Pvlib.Props.ArrayClass.temp_sapm`, `Pvlib.Props.ArrayClass.temp_sapm_missing`, `Pvlib.Props.ArrayClass.temp_pvsyst`, `Pvlib.Props.ArrayClass.temp_faiman`, `Pvlib.Props.ArrayClass.temp_faimanRad`, `Pvlib.Props.ArrayClass.temp_fuentes`, `Pvlib.Props.ArrayClass.temp_noctSam`, `Pvlib.Props.ArrayClass.temp_ross`, `Pvlib.Props.ArrayClass.temp_unknown`, `Pvlib.Props.ArrayClass.temp_inferred`, `Pvlib.Props.ArrayClass.iam_models`, `Pvlib.Props.ArrayClass.dcOhms_choice`.

### C89 Array.get_irradiance

Case analysis.

Status: proved.
Theorems: `Pvlib.Props.ArrayClass.irradiance_fixed`, `Pvlib.Props.ArrayClass.irradiance_tracker`, `Pvlib.Props.ArrayClass.irradiance_default_ok`, `Pvlib.Props.ArrayClass.aoi_fixed`.

### C90 Parameter routing of losses and module models

Keyword selection lemma.

Status: proved.
Theorems: `Pvlib.Props.ArrayClass.losses_value`, `Pvlib.Props.ArrayClass.desoto_value`, `Pvlib.Props.ArrayClass.desoto_missing`, `Pvlib.Props.ArrayClass.cec_value`, `Pvlib.Props.ArrayClass.pvsyst_value`, `Pvlib.Props.ArrayClass.pvwattsDc_value`, `Pvlib.Props.ArrayClass.pvwattsDc_missing`.

### C91 ModelChain model choice

Case analysis against independent tables of marks and needs.

Status: proved.
Theorems: `Pvlib.Props.ChainConfig.dc_named_accepted`, `Pvlib.Props.ChainConfig.dc_named_refused`, `Pvlib.Props.ChainConfig.dc_named_model`, `Pvlib.Props.ChainConfig.dc_singlediode`, `Pvlib.Props.ChainConfig.dc_inferred`, `Pvlib.Props.ChainConfig.dc_inferred_refused`, `Pvlib.Props.ChainConfig.dc_accepted_computes`, `Pvlib.Props.ChainConfig.aoi_inferred`, `Pvlib.Props.ChainConfig.aoi_inferred_refused`, `Pvlib.Props.ChainConfig.aoi_named`, `Pvlib.Props.ChainConfig.aoi_named_refused`, `Pvlib.Props.ChainConfig.spectral_cases`, `Pvlib.Props.ChainConfig.losses_cases`, `Pvlib.Props.ChainConfig.temp_inferred`, `Pvlib.Props.ChainConfig.temp_named`, `Pvlib.Props.ChainConfig.temp_refused_kept`, `Pvlib.Props.ChainConfig.temp_unknown`, `Pvlib.Props.ChainConfig.ac_inferred`, `Pvlib.Props.ChainConfig.ac_named`, `Pvlib.Props.ChainConfig.names_case`, `Pvlib.Props.ChainConfig.aoi_inferred_computes`, `Pvlib.Props.ChainConfig.temp_accepted_computes`.

### C92 ModelChain construction and presets

Construction shown equivalent to a record of acceptance conditions.

Status: proved.
Theorems: `Pvlib.Props.ChainConfig.chain_iff`, `Pvlib.Props.ChainConfig.presets`, `Pvlib.Props.ChainConfig.pvwatts_preset`, `Pvlib.Props.ChainConfig.sapm_preset`, `Pvlib.Props.ChainConfig.orientation_cases`.

### C93 ModelChain input validation

Case analysis of each entry point.

Status: proved.
Theorems: `Pvlib.Props.ChainRun.list_as_tuple`, `Pvlib.Props.ChainRun.run_model_accepts`, `Pvlib.Props.ChainRun.run_model_refuses`, `Pvlib.Props.ChainRun.run_poa_accepts`, `Pvlib.Props.ChainRun.run_eff_accepts`, `Pvlib.Props.ChainRun.run_strict_refuses`, `Pvlib.Props.ChainRun.run_missing_columns`.

### C94 ModelChain runs do not depend on earlier runs

Relational (two-state) invariant through every step of the run.

Status: proved.
Theorems: `Pvlib.Props.ChainRun.run_model_fresh`, `Pvlib.Props.ChainRun.run_poa_fresh`, `Pvlib.Props.ChainRun.run_eff_fresh`, `Pvlib.Props.ChainRun.complete_tuple_fresh`, `Pvlib.Props.ChainRun.complete_frame_history`, `Pvlib.Props.ChainRun.completed_frame`.

### C95 What a ModelChain run computes

Each step is shown to refine a per-array specification; composed over the run.

Status: proved.
Theorems: `Pvlib.Props.ChainArrays.run_model_array`, `Pvlib.Props.ChainArrays.run_poa_array`, `Pvlib.Props.ChainArrays.run_eff_array`, `Pvlib.Props.ChainArrays.run_ac`.

### C96 Shape of ModelChain results

Invariant through the run.

Status: proved.
Theorems: `Pvlib.Props.ChainArrays.run_shapes`.

### C97 Arrays of a ModelChain are independent

The per-array specification of C95 is shown to be functional.

Status: proved.
Theorems: `Pvlib.Props.ChainFacts.array_independent`, `Pvlib.Props.ChainFacts.container_irrelevant`.

### C98 Entry points of a ModelChain agree

From the specifications of C95.

Status: proved.
Theorems: `Pvlib.Props.ChainFacts.poa_entry_agrees`, `Pvlib.Props.ChainFacts.eff_entry_agrees`.

### C99 Range of ModelChain output power

C95 composed with the inverter ranges.

Status: proved.
Theorems: `Pvlib.Props.ChainFacts.pvwatts_ac_range`, `Pvlib.Props.ChainFacts.sandia_ac_range`, `Pvlib.Props.ChainFacts.pvwatts_dc_value`.

### C100 A well configured ModelChain never raises on well formed input

Forward totality of every step, reusing the step specifications.

Status: proved.
Theorems: `Pvlib.Props.ChainTotal.run_eff_total`, `Pvlib.Props.ChainTotal.run_poa_total`, `Pvlib.Props.ChainTotal.run_model_total`, `Pvlib.Props.ChainTotal.pvwatts_chain_runs`, `Pvlib.Props.ChainTotal.sapm_chain_runs`.

### C101 Ineichen clear sky: closure, range, night and NaN

Evaluate the NaN-mapping operations case by case; real inequalities.

Status: proved.
Theorems: `Pvlib.Props.Clearsky.ineichen_formula`, `Pvlib.Props.Clearsky.ineichen_night`, `Pvlib.Props.Clearsky.ineichen_nan`, `Pvlib.Props.Clearsky.ineichen_closure`, `Pvlib.Props.Clearsky.ineichen_dhi_negative`, `Pvlib.Props.Clearsky.ineichen_antitone`, `Pvlib.Props.Clearsky.ineichen_upper`, `Pvlib.Props.Clearsky.ineichen_scale`.

### C102 Haurwitz clear sky

Monotonicity of c exp(-k/c).

Status: proved.
Theorems: `Pvlib.Props.ClearskySolis.haurwitz_formula`, `Pvlib.Props.ClearskySolis.haurwitz_range`, `Pvlib.Props.ClearskySolis.haurwitz_antitone`, `Pvlib.Props.ClearskySolis.haurwitz_nan`.

### C103 Simplified Solis clear sky

Sign of the coefficient polynomials on the published range; monotonicity of exp and powers.

Status: proved.
Theorems: `Pvlib.Props.ClearskySolis.solis_formula`, `Pvlib.Props.ClearskySolis.solis_water_floor`, `Pvlib.Props.ClearskySolis.solis_nan`, `Pvlib.Props.ClearskySolis.solis_scale`, `Pvlib.Props.ClearskySolis.solis_range`, `Pvlib.Props.ClearskySolis.solis_monotone`.

### C104 Bird clear sky

Bounds on each transmittance, then on the product.

Status: proved.
Theorems: `Pvlib.Props.ClearskyBird.transmittances`, `Pvlib.Props.ClearskyBird.rayleigh_exceeds_one`, `Pvlib.Props.ClearskyBird.bird_formula`, `Pvlib.Props.ClearskyBird.bird_closure`, `Pvlib.Props.ClearskyBird.bird_night`, `Pvlib.Props.ClearskyBird.bird_nan`.

### C105 Linke turbidity look-up

Induction over the interpolation nodes.

Status: proved.
Theorems: `Pvlib.Props.Linke.month_middles`, `Pvlib.Props.Linke.turbidity_linear`, `Pvlib.Props.Linke.day_covered`, `Pvlib.Props.Linke.turbidity_at_middle`, `Pvlib.Props.Linke.lookup_spec`, `Pvlib.Props.Linke.lookup_error`.

### C106 Clear-sky detection: inputs and inferred limits

Case analysis; monotone interpolation.

Status: proved.
Theorems: `Pvlib.Props.ClearskyDetect.detect_explicit`, `Pvlib.Props.ClearskyDetect.detect_infer`, `Pvlib.Props.ClearskyDetect.detect_no_iterations`, `Pvlib.Props.ClearskyDetect.thresholds`.

### C107 Clear-sky detection: what is reported clear

Induction over the passes; least-squares algebra.

Status: proved.
Theorems: `Pvlib.Props.ClearskyDetect.detection_spec`, `Pvlib.Props.ClearskyDetect.nan_not_clear`, `Pvlib.Props.ClearskyDetect.nan_sample_not_clear`, `Pvlib.Props.ClearskyDetect.alpha_least_squares`, `Pvlib.Props.ClearskyDetect.detect_total`, `Pvlib.Props.ClearskyDetect.self_detect`, `Pvlib.Props.ClearskyDetect.window_finite`, `Pvlib.Props.ClearskyDetect.detect_returns`, `Pvlib.Props.ClearskyDetect.window_real`.

### C108 Analytical zenith and azimuth are the direction of the sun

Rotation of the unit vector; spherical trigonometry.

Status: proved.
Theorems: `Pvlib.Props.SolarGeometry.zenith_angle`, `Pvlib.Props.SolarGeometry.zenith_noon`, `Pvlib.Props.SolarGeometry.zenith_symmetric`, `Pvlib.Props.SolarGeometry.zenith_nan`, `Pvlib.Props.SolarGeometry.azimuth_range`, `Pvlib.Props.SolarGeometry.azimuth_exact`, `Pvlib.Props.SolarGeometry.azimuth_approx`, `Pvlib.Props.SolarGeometry.azimuth_noon_south`, `Pvlib.Props.SolarGeometry.azimuth_noon_wrong`, `Pvlib.Props.SolarGeometry.azimuth_mirror`, `Pvlib.Props.SolarGeometry.azimuth_unwrapped`, `Pvlib.Props.SolarGeometry.azimuth_nan`.

### C109 Declination and equation of time

Cauchy-Schwarz on each harmonic.

Status: proved.
Theorems: `Pvlib.Props.SolarGeometry.cooper_formula`, `Pvlib.Props.SolarGeometry.cooper_range`, `Pvlib.Props.SolarGeometry.cooper_seasons`, `Pvlib.Props.SolarGeometry.spencer_range`, `Pvlib.Props.SolarGeometry.eot_spencer_range`, `Pvlib.Props.SolarGeometry.eot_pvcdrom_range`, `Pvlib.Props.SolarGeometry.yearly`, `Pvlib.Props.SolarGeometry.noon_zenith_pos`.

### C110 Hour angle of localized times

Zones as arbitrary functions from instants to offsets.

Status: proved.
Theorems: `Pvlib.Props.SolarLocal.naive_refused`, `Pvlib.Props.SolarLocal.hour_angle_fixed`, `Pvlib.Props.SolarLocal.hour_angle_zone`, `Pvlib.Props.SolarLocal.hour_angle_ordinary_day`, `Pvlib.Props.SolarLocal.hour_angle_dst_day`, `Pvlib.Props.SolarLocal.hour_angle_skipped_midnight`, `Pvlib.Props.SolarLocal.hour_angle_repeated_midnight`, `Pvlib.Props.SolarLocal.hour_angle_zones_agree`.

### C111 Geometric sunrise, sunset and transit

Sign of the upward component of the sun's direction.

Status: proved.
Theorems: `Pvlib.Props.SolarLocal.sunset_angle`, `Pvlib.Props.SolarLocal.rise_set_transit`, `Pvlib.Props.SolarLocal.rise_set_polar`, `Pvlib.Props.SolarLocal.equinox_day_length`, `Pvlib.Props.SolarLocal.rise_set_dst_day`, `Pvlib.Props.SolarLocal.rise_set_raises`, `Pvlib.Props.SolarLocal.rise_set_elementwise`, `Pvlib.Props.SolarLocal.transit_hour_angle`.

### C112 The ephemeris algorithm

Contraction argument for the loop, induction over passes; vector identities.

Status: proved.
Theorems: `Pvlib.Props.Ephemeris.epoch_days`, `Pvlib.Props.Ephemeris.epoch_days_outside`, `Pvlib.Props.Ephemeris.kepler`, `Pvlib.Props.Ephemeris.nat_stops_kepler`, `Pvlib.Props.Ephemeris.true_anomaly`, `Pvlib.Props.Ephemeris.equatorial`, `Pvlib.Props.Ephemeris.horizon_coords`, `Pvlib.Props.Ephemeris.refraction`, `Pvlib.Props.Ephemeris.row_spec`, `Pvlib.Props.Ephemeris.ephemeris_spec`, `Pvlib.Props.Ephemeris.civil_ok`, `Pvlib.Props.Ephemeris.sidereal_longitude`, `Pvlib.Props.Ephemeris.ephemeris_empty`, `Pvlib.Props.Ephemeris.ephemeris_nat`.

### C113 Threaded SPA equals single-threaded SPA

Writes of the chunks are a permutation with distinct cells; induction over the schedule.

Status: proved.
Theorems: `Pvlib.Props.SpaThreads.threaded_eq_numpy`, `Pvlib.Props.SpaThreads.threaded_in_bounds`, `Pvlib.Props.SpaThreads.numpy_shape`, `Pvlib.Props.SpaThreads.threaded_no_race`, `Pvlib.Props.SpaThreads.thread_count`, `Pvlib.Props.SpaThreads.chunks_even`, `Pvlib.Props.SpaThreads.interleaving_exists`, `Pvlib.Props.SpaThreads.chunk_sum`.

### C114 Delta T by year and month

Peel the where chain; interval arithmetic on polynomials.

Status: proved.
Theorems: `Pvlib.Props.SpaDeltat.deltat_spec`, `Pvlib.Props.SpaDeltat.deltat_jump`, `Pvlib.Props.SpaDeltat.boundaries_eq`, `Pvlib.Props.SpaDeltat.deltat_finite`, `Pvlib.Props.SpaDeltat.deltat_nan_year`, `Pvlib.Props.SpaDeltat.deltat_modern`, `Pvlib.Props.SpaDeltat.deltat_modern_increasing`, `Pvlib.Props.SpaDeltat.deltat_warns_iff`.

### C115 Julian day numbering

Integer arithmetic on floor divisions; induction over days.

Status: proved.
Theorems: `Pvlib.Props.SpaJulian.jd_next_day`, `Pvlib.Props.SpaJulian.jd_within_day`, `Pvlib.Props.SpaJulian.jd_epoch`, `Pvlib.Props.SpaJulian.jd_unix`, `Pvlib.Props.SpaJulian.jd_next_day_julian`, `Pvlib.Props.SpaJulian.jd_zero`, `Pvlib.Props.SpaJulian.jd_reform_glitch`.

### C116 Series of the earth position

Amplitude sums of the tables, computed by the kernel.

Status: proved.
Theorems: `Pvlib.Props.SpaBounds.distance_range`, `Pvlib.Props.SpaBounds.distance_range_century`, `Pvlib.Props.SpaBounds.spa_distance_range`, `Pvlib.Props.SpaBounds.longitude_range`, `Pvlib.Props.SpaBounds.latitude_bound`, `Pvlib.Props.SpaBounds.nutation_bound`, `Pvlib.Props.SpaBounds.nutation_rows`, `Pvlib.Props.SpaBounds.obliquity_range`.

### C117 Geocentric right ascension and declination

Vector rotation identities.

Status: proved.
Theorems: `Pvlib.Props.SpaGeometry.equatorial_coordinates`, `Pvlib.Props.SpaGeometry.eclToEq_unit`, `Pvlib.Props.SpaPosition.geo_spec`.

### C118 Topocentric elevation and azimuth

Vector identities on the ellipsoid.

Status: proved.
Theorems: `Pvlib.Props.SpaGeometry.observer_point`, `Pvlib.Props.SpaGeometry.parallax_direction`, `Pvlib.Props.SpaGeometry.horizon_direction`, `Pvlib.Props.SpaPosition.observer_unique`, `Pvlib.Props.SpaPosition.spa_direction`.

### C119 SPA never fails and its refraction and equation of time are sane

Compose the range lemmas.

Status: proved.
Theorems: `Pvlib.Props.SpaPosition.spa_total`, `Pvlib.Props.SpaPosition.eot_range`, `Pvlib.Props.SpaPosition.refraction_eval`, `Pvlib.Props.SpaPosition.refraction_pos`, `Pvlib.Props.SpaPosition.refraction_below`, `Pvlib.Props.SpaPosition.refraction_singular`, `Pvlib.Props.SpaPosition.refraction_zenith_neg`, `Pvlib.Props.SpaPosition.apparent`.

### C120 SPA sunrise, sunset and transit

Case analysis of modulus and arccos; composition with the geocentric bounds.

Status: proved.
Theorems: `Pvlib.Props.SpaRiseSet.accepts_iff`, `Pvlib.Props.SpaRiseSet.h0_crosses`, `Pvlib.Props.SpaRiseSet.h0_nan_iff`, `Pvlib.Props.SpaRiseSet.unwrap_recovers`, `Pvlib.Props.SpaRiseSet.unwrap_small`, `Pvlib.Props.SpaRiseSet.unwrap_loses`, `Pvlib.Props.SpaRiseSet.times_spec`, `Pvlib.Props.SpaRiseSet.spa_rise_set`, `Pvlib.Props.SpaRiseSet.no_polar_day`.

### C121 numba or numpy after any history

State invariant by induction over the history.

Status: proved.
Theorems: `Pvlib.Props.SolarDispatch.mode_is_last_how`, `Pvlib.Props.SolarDispatch.import_ok`, `Pvlib.Props.SolarDispatch.import_raises_iff`, `Pvlib.Props.SolarDispatch.import_unknown`, `Pvlib.Props.SolarDispatch.import_idempotent`, `Pvlib.Props.SolarDispatch.import_env`, `Pvlib.Props.SolarDispatch.sound_history`.

### C122 get_solarposition: methods, defaults and frames

Set of possible outcomes under all schedules shown to be one frame.

Status: proved.
Theorems: `Pvlib.Props.SolarDispatch.runs_eq`, `Pvlib.Props.SolarDispatch.spa_python_spec`, `Pvlib.Props.SolarDispatch.numba_numpy_agree`, `Pvlib.Props.SolarDispatch.unknown_method`, `Pvlib.Props.SolarDispatch.method_case`, `Pvlib.Props.SolarDispatch.defaults`, `Pvlib.Props.SolarDispatch.zone_irrelevant`, `Pvlib.Props.SolarDispatch.frame_shape`, `Pvlib.Props.SolarDispatch.nrel_c_arguments`, `Pvlib.Props.SolarDispatch.refract_zero`, `Pvlib.Props.SolarDispatch.numpy_total`, `Pvlib.Props.SolarDispatch.pyephem_rows`, `Pvlib.Props.SolarDispatch.ephemeris_rows`.

### C123 sun_rise_set_transit_spa answers for the local date

Zones as arbitrary functions from instants to offsets; composition with C120.

Status: proved.
Theorems: `Pvlib.Props.SolarDispatch.localDate_spec`, `Pvlib.Props.SolarDispatch.rise_set_naive`, `Pvlib.Props.SolarDispatch.rise_set_spec`, `Pvlib.Props.SolarDispatch.same_date_same_answer`, `Pvlib.Props.SolarDispatch.rise_set_real`.

### C124 Earth-sun distance and PyEphem times

Integer division; composition with C116.

Status: proved.
Theorems: `Pvlib.Props.SolarDispatch.distance_spec`, `Pvlib.Props.SolarDispatch.pyRound_near`, `Pvlib.Props.SolarDispatch.pyRound_tie`, `Pvlib.Props.SolarDispatch.pyRound_nearest`, `Pvlib.Props.SolarDispatch.ephem_time`, `Pvlib.Props.SolarDispatch.ephem_rise_set_raises`, `Pvlib.Props.SolarDispatch.ephem_rise_set`.

### C125 Sunlit fraction of the ground between rows

Overlap lemma for one shadow, disjointness of shadows, Lebesgue measure of the union.

Status: proved.
Theorems: `Pvlib.Props.BifacialShadow.fraction_range`, `Pvlib.Props.BifacialShadow.fraction_exact`, `Pvlib.Props.BifacialShadow.fraction_part`, `Pvlib.Props.BifacialShadow.fraction_formula`, `Pvlib.Props.BifacialShadow.fraction_closed_form`, `Pvlib.Props.BifacialShadow.default_rows_enough`, `Pvlib.Props.BifacialShadow.default_rows_too_few`, `Pvlib.Props.BifacialShadow.fraction_nan`, `Pvlib.Props.BifacialShadow.shadowPart_fin`, `Pvlib.Props.BifacialShadow.unshaded_fin`.

### C126 View factors of a point on a row

Euclidean angle in the plane, integral of Lambert's cosine.

Status: proved.
Theorems: `Pvlib.Props.BifacialRow.row_sky_view`, `Pvlib.Props.BifacialRow.row_ground_view`, `Pvlib.Props.BifacialRow.row_views_sum`, `Pvlib.Props.BifacialRow.row_views_monotone`, `Pvlib.Props.BifacialRow.row_sky_masking`.

### C127 Row-to-sky view factor of a segment

Fundamental theorem of calculus for the distance function.

Status: proved.
Theorems: `Pvlib.Props.BifacialRow.row_sky_mean`, `Pvlib.Props.BifacialRow.row_sky_negative_tilt`, `Pvlib.Props.BifacialRow.row_sky_mean_range`, `Pvlib.Props.BifacialRow.row_sky_additive`, `Pvlib.Props.BifacialRow.row_sky_swapped`, `Pvlib.Props.BifacialRow.integ_fin`.

### C128 Ground-to-sky view factor of a point

Order of the rows' edges by angle; measure of a union of gaps.

Status: proved.
Theorems: `Pvlib.Props.BifacialGround.ground_sky_exact`, `Pvlib.Props.BifacialGround.ground_sky_range`, `Pvlib.Props.BifacialGround.blocked_iff`.

### C129 Crossed strings

Triangle inequality, integration, telescoping sums.

Status: proved.
Theorems: `Pvlib.Props.BifacialStrings.string_ge`, `Pvlib.Props.BifacialStrings.crossed_unobstructed_le`, `Pvlib.Props.BifacialStrings.hottel`, `Pvlib.Props.BifacialStrings.ground_sky_integ_nonneg`, `Pvlib.Props.BifacialStrings.row_ground_additive`, `Pvlib.Props.BifacialStrings.row_ground_additive_row`, `Pvlib.Props.BifacialStrings.row_ground_telescopes`, `Pvlib.Props.BifacialStrings.row_ground_integ_nonneg`, `Pvlib.Props.BifacialStrings.row_ground_whole`.

### C130 Bifacial results do not depend on the unit of length

Homogeneity of distances.

Status: proved.
Theorems: `Pvlib.Props.BifacialStrings.ground_sky_scale`, `Pvlib.Props.BifacialStrings.row_ground_scale`, `Pvlib.Props.BifacialStrings.unshaded_scale`, `Pvlib.Props.BifacialStrings.maxRows_scale`, `Pvlib.Props.BifacialStrings.sheds_scale`.

### C131 infinite_sheds conserves direct light

Both sides expressed by the same shadow width.

Status: proved.
Theorems: `Pvlib.Props.Sheds.shaded_range`, `Pvlib.Props.Sheds.backside_normal`, `Pvlib.Props.Sheds.direct_fin`, `Pvlib.Props.Sheds.ground_fraction`, `Pvlib.Props.Sheds.beam_conserved`.

### C132 infinite_sheds components

Composition of C125-C129.

Status: proved.
Theorems: `Pvlib.Props.Sheds.side_nonneg`, `Pvlib.Props.Sheds.side_dark`, `Pvlib.Props.Sheds.circumsolar_conserved`.

### C133 infinite_sheds model choice and both sides

Case analysis.

Status: proved.
Theorems: `Pvlib.Props.Sheds.model_choice`, `Pvlib.Props.Sheds.both_sides`, `Pvlib.Props.Sheds.monofacial`.

### C134 ants2d row segments

Telescoping of clipped linear functions.

Status: proved.
Theorems: `Pvlib.Props.Ants.segments_spec`, `Pvlib.Props.Ants.shaded_value`, `Pvlib.Props.Ants.shaded_partition`, `Pvlib.Props.Ants.shaded_order`, `Pvlib.Props.Ants.side_nonneg`, `Pvlib.Props.Ants.direct_mean`.

### C135 ants2d sky models, slopes and results

Case analysis and the tracker normal.

Status: proved.
Theorems: `Pvlib.Props.Ants.sky_model_errors`, `Pvlib.Props.Ants.sky_model_isotropic`, `Pvlib.Props.Ants.sky_model_moves`, `Pvlib.Props.Ants.wrap_spec`, `Pvlib.Props.Ants.back_normal`, `Pvlib.Props.Ants.slope_zero`, `Pvlib.Props.Ants.result_shape`, `Pvlib.Props.Ants.ground_light`, `Pvlib.Props.Ants.sloped_call`.

### C136 Bifacial mismatch loss

Induction on the coefficients.

Status: proved.
Theorems: `Pvlib.Props.Ants.mismatch_value`, `Pvlib.Props.Ants.mismatch_fill_factor`, `Pvlib.Props.Ants.mismatch_default`, `Pvlib.Props.Ants.mismatch_zero_ff`.

### C137 Reverse transposition

scipy's bisection transcribed; loop invariant (sign change in the bracket) by induction on the iterations.

Status: proved.
Theorems: `Pvlib.Props.Reverse.poaFromGhi_is_total`, `Pvlib.Props.Reverse.poaFromGhi_real`, `Pvlib.Props.Reverse.forward_spec`, `Pvlib.Props.Reverse.ghi_from_poa_error_iff`, `Pvlib.Props.Reverse.ghi_from_poa_nan`, `Pvlib.Props.Reverse.ghi_from_poa_dark`, `Pvlib.Props.Reverse.ghi_from_poa_infeasible`, `Pvlib.Props.Reverse.ghi_from_poa_feasible`, `Pvlib.Props.Reverse.ghi_from_poa_default_converges`, `Pvlib.Props.Reverse.forward_horizontal`, `Pvlib.Props.Reverse.ghi_from_poa_horizontal`.

### C138 DIRINDEX

From the DIRINT theorems (C26).

Status: proved.
Theorems: `Pvlib.Props.GtiFull.dirindex_not_neg`, `Pvlib.Props.GtiFull.dirindex_value`, `Pvlib.Props.GtiFull.dirindex_clear`, `Pvlib.Props.GtiFull.dirindex_range`, `Pvlib.Props.GtiFull.dirindex_low_sun`.

### C139 GTI-DIRINT

The loop theorems of C29 instantiated with the real pass.

Status: proved.
Theorems: `Pvlib.Props.GtiFull.gti_dirint_no_front`, `Pvlib.Props.GtiFull.gti_dirint_returns`, `Pvlib.Props.GtiFull.gti_dirint_bad_model`, `Pvlib.Props.GtiFull.gti_dirint_front`, `Pvlib.Props.GtiFull.gti_dirint_fit`, `Pvlib.Props.GtiFull.gti_pass_formula`, `Pvlib.Props.GtiFull.gti_dirint_back_off`, `Pvlib.Props.GtiFull.gti_dirint_back_nan`, `Pvlib.Props.GtiFull.gti_dirint_back_dni`, `Pvlib.Props.GtiFull.gti_dirint_back_consistent`, `Pvlib.Props.GtiFull.gti_back_kt_morning`, `Pvlib.Props.GtiFull.gti_back_kt_afternoon`, `Pvlib.Props.GtiFull.gti_back_dni_formula`.

### C140 Numerical derivatives of a curve

Lagrange interpolation identities; explicit counterexample.

Status: proved.
Theorems: `Pvlib.Props.NumDiff.ends_nan`, `Pvlib.Props.NumDiff.first_derivative_exact`, `Pvlib.Props.NumDiff.second_derivative_equal_spacing`, `Pvlib.Props.NumDiff.second_derivative_of_constant`.

### C141 Rectified IV curves

Sorting and grouping on lists.

Status: proved.
Theorems: `Pvlib.Props.Rectify.rectified_points`, `Pvlib.Props.Rectify.rectified_increasing`, `Pvlib.Props.Rectify.rectified_first_quadrant`, `Pvlib.Props.Rectify.rectified_order_irrelevant`, `Pvlib.Props.Rectify.rectified_idempotent`.

### C142 Schumaker quadratic spline

Case analysis of the knot rule; counterexample.

Status: proved.
Theorems: `Pvlib.Props.Schumaker.slopes`, `Pvlib.Props.Schumaker.spline_layout`, `Pvlib.Props.Schumaker.knots_increasing`, `Pvlib.Props.Schumaker.data_points_kept`, `Pvlib.Props.Schumaker.slopes_bounded`, `Pvlib.Props.Schumaker.pieces_monotone`, `Pvlib.Props.Schumaker.line_reproduced`, `Pvlib.Props.Schumaker.knot_interval_interpolates_iff`, `Pvlib.Props.Schumaker.spline_jumps`.

### C143 ASTM E1036 parameters

Third-party fit and roots by specification (shown satisfiable).

Status: proved.
Theorems: `Pvlib.Props.Astm.good_lib_exists`, `Pvlib.Props.Astm.fit_exact`, `Pvlib.Props.Astm.result_structure`, `Pvlib.Props.Astm.power_identities`, `Pvlib.Props.Astm.measured_voc_isc`, `Pvlib.Props.Astm.extrapolated_voc`, `Pvlib.Props.Astm.extrapolated_isc`, `Pvlib.Props.Astm.max_power_exact`, `Pvlib.Props.Astm.succeeds`.

### C144 Simple Sandia fit of the single diode equation

Induction over the prefixes; third-party least squares by specification (shown satisfiable).

Status: proved.
Theorems: `Pvlib.Props.SandiaSimple.good_lib_exists`, `Pvlib.Props.SandiaSimple.linear_part_errors`, `Pvlib.Props.SandiaSimple.linear_part_not_nan`, `Pvlib.Props.SandiaSimple.no_exponential_part`, `Pvlib.Props.SandiaSimple.returned_parameters`, `Pvlib.Props.SandiaSimple.exact_recovery`.

### C145 Co-content fit of the single diode equation

Telescoping sums; fundamental theorem of calculus with the implicit curve differentiated; linear algebra of the change of coordinates.

Status: proved.
Theorems: `Pvlib.Props.Cocontent.input_errors`, `Pvlib.Props.Cocontent.cocontent_is_integral`, `Pvlib.Props.Cocontent.cocontent_closed_form`, `Pvlib.Props.Cocontent.regression_exact`, `Pvlib.Props.Cocontent.params_exact`, `Pvlib.Props.Cocontent.recovers_cell`, `Pvlib.Props.Cocontent.io_error`, `Pvlib.Props.Cocontent.iph_misses_isc`.

### C146 Steps of the Sandia IV-curve fit

Lambert-W identities over the reals; induction over passes; third-party lambertw by specification (shown satisfiable).

Status: proved.
Theorems: `Pvlib.Props.SdmSteps.goodNum_exists`, `Pvlib.Props.SdmSteps.iph_meets_isc`, `Pvlib.Props.SdmSteps.rs_meets_mpp`, `Pvlib.Props.SdmSteps.rsh_fixed_iff`, `Pvlib.Props.SdmSteps.rsh_update_stationary`, `Pvlib.Props.SdmSteps.rsh_update_passes`, `Pvlib.Props.SdmSteps.io_step`, `Pvlib.Props.SdmSteps.loop_passes`, `Pvlib.Props.SdmSteps.io_passes`, `Pvlib.Props.SdmSteps.npMax_nan`, `Pvlib.Props.SdmSteps.npMax_ge`, `Pvlib.Props.SdmSteps.nan_stops_all`, `Pvlib.Props.SdmSteps.io_tolerance`, `Pvlib.Props.SdmSteps.overflow_branch_wrong`, `Pvlib.Props.SdmSteps.overflow_misses_mpp`, `Pvlib.Props.SdmSteps.filter_iff`, `Pvlib.Props.SdmSteps.filter_nan`.

### C147 Iteration of the Sandia IV-curve fit

Induction over loop passes with the filter invariant.

Status: proved.
Theorems: `Pvlib.Props.SdmLoop.refine_step`, `Pvlib.Props.SdmLoop.loop_passes`, `Pvlib.Props.SdmLoop.convergence_meaning`, `Pvlib.Props.SdmLoop.initial_io`, `Pvlib.Props.SdmLoop.dropped_forever`, `Pvlib.Props.SdmLoop.loop_result`, `Pvlib.Props.SdmLoop.no_iterations`, `Pvlib.Props.SdmLoop.initial_values`, `Pvlib.Props.SdmLoop.placeholder_refined`, `Pvlib.Props.SdmLoop.desoto_result`, `Pvlib.Props.SdmLoop.pvsyst_result`.

### C148 Module parameters extracted from fitted IV curves

Exact-fit uniqueness of robust and ordinary least squares (specified, shown satisfiable).

Status: proved.
Theorems: `Pvlib.Props.SdmExtract.goodRlm_exists`, `Pvlib.Props.SdmExtract.desoto_extraction`, `Pvlib.Props.SdmExtract.egFactor_bounds`, `Pvlib.Props.SdmExtract.one_irradiance_raises`, `Pvlib.Props.SdmExtract.pvsyst_extraction`, `Pvlib.Props.SdmExtract.shunt_identified`, `Pvlib.Props.SdmExtract.desoto_diode`, `Pvlib.Props.SdmExtract.pvsyst_gamma`, `Pvlib.Props.SdmExtract.shunt_start`.

### C149 fit_desoto solves the datasheet equations

Implicit curve shown to exist and differentiated; equation by equation equivalence.

Status: proved.
Theorems: `Pvlib.Props.SdmDesoto.curve_exists`, `Pvlib.Props.SdmDesoto.system_iff`, `Pvlib.Props.SdmDesoto.guess_ok`, `Pvlib.Props.SdmDesoto.guess_value`, `Pvlib.Props.SdmDesoto.outcome`, `Pvlib.Props.SdmDesoto.start_values`.

### C150 fit_desoto_batzelis closed form

Algebra over the reals with the accuracy theorem of the Lambert-W approximation.

Status: proved.
Theorems: `Pvlib.Props.SdmDesoto.batzelis`, `Pvlib.Props.SdmDesoto.batzelis_points`, `Pvlib.Props.SdmDesoto.batzelis_scaling`.

### C151 fit_pvsyst_iec61853_sandia_2025 steps

Uniqueness of exact least squares solutions; case analysis of the filters.

Status: proved.
Theorems: `Pvlib.Props.SdmIec.tempco_exact`, `Pvlib.Props.SdmIec.shunt_exact`, `Pvlib.Props.SdmIec.series_exact`, `Pvlib.Props.SdmIec.gamma_exact`, `Pvlib.Props.SdmIec.saturation_exact`, `Pvlib.Props.SdmIec.photocurrent_exact`, `Pvlib.Props.SdmIec.gamma_post_exact`, `Pvlib.Props.SdmIec.iec_outcome`, `Pvlib.Props.SdmIec.iec_steps`.

### C152 pvsyst_temperature_coeff

Global optimality of the maximum power point (C68); mean value inequality applied three times.

Status: proved.
Theorems: `Pvlib.Props.SdmCoeff.difference_error`, `Pvlib.Props.SdmCoeff.temperature_coeff`, `Pvlib.Props.SdmCoeff.temperature_coeff_error`, `Pvlib.Props.SdmCoeff.temperature_coeff_raises`, `Pvlib.Props.SdmCoeff.roots_exist`.

### C153 fit_cec_sam

Induction over the key list; SAM is an arbitrary function.

Status: proved.
Theorems: `Pvlib.Props.SdmCoeff.cec_sam`.

### C154 spectrl2: a physical spectrum at every wavelength

Rational facts about the table by kernel evaluation; real-analysis bounds of transmittances; energy bracket for the diffuse terms.

Status: proved.
Theorems: `Pvlib.Props.Spectrl2.table`, `Pvlib.Props.Spectrl2.physical_row`, `Pvlib.Props.Spectrl2.call`, `Pvlib.Props.Spectrl2.day_required`, `Pvlib.Props.Spectrl2.attenuation`, `Pvlib.Props.Spectrl2.forward_negative`.

### C155 read_panond: the nesting of PVsyst files is recovered exactly

Induction over the content with a heap of dictionaries; the parser's stack is the path in the tree.

Status: proved. Text is a list of characters; float() and int() are arbitrary partial functions.
Theorems: `Pvlib.Props.Panond.reads`, `Pvlib.Props.Panond.unique`, `Pvlib.Props.Panond.last_line_ignored`, `Pvlib.Props.Panond.second_equals`, `Pvlib.Props.Panond.values`, `Pvlib.Props.Panond.blank_line_raises`, `Pvlib.Props.Panond.blank_line_misfiles`.

### C156 read_tmy3: the time index

Gregorian calendar model; induction over rows; case analysis of month ends.

Status: proved.
Theorems: `Pvlib.Props.Tmy3.naive`, `Pvlib.Props.Tmy3.coerced`, `Pvlib.Props.Tmy3.typical_year`, `Pvlib.Props.Tmy3.typical_increasing`, `Pvlib.Props.Tmy3.last_row_year`, `Pvlib.Props.Tmy3.bad_date`.

### C157 TMY2 and EPW: time index, fields, time zone

Induction over rows and field widths; calendar arithmetic.

Status: proved.
Theorems: `Pvlib.Props.StationIndex.tmy2_index`, `Pvlib.Props.StationIndex.tmy2_leap_day`, `Pvlib.Props.StationIndex.tmy2_typical`, `Pvlib.Props.StationIndex.fields_contiguous`, `Pvlib.Props.StationIndex.tmy2_layout`, `Pvlib.Props.StationIndex.header_angle`, `Pvlib.Props.StationIndex.epw_index`, `Pvlib.Props.StationIndex.epw_leap_day`, `Pvlib.Props.StationIndex.epw_typical`, `Pvlib.Props.StationIndex.localized`.

### C158 read_srml: the time index

Arithmetic of HHMM integers.

Status: proved.
Theorems: `Pvlib.Props.StationIndex.srml_index`, `Pvlib.Props.StationIndex.srml_half_hourly`, `Pvlib.Props.StationIndex.srml_coarse`, `Pvlib.Props.StationIndex.srml_zone`, `Pvlib.Props.StationIndex.srml_short`.

### C159 Station networks: the time index

Calendar arithmetic.

Status: proved.
Theorems: `Pvlib.Props.StationIndex.day_of_year_index`, `Pvlib.Props.StationIndex.networks_agree`, `Pvlib.Props.StationIndex.crn_index`, `Pvlib.Props.StationIndex.bsrn_index`.

### C160 read_srml: columns, flags and bad values

Induction over the column pairs; prefix-freeness of the mapped names.

Status: proved.
Theorems: `Pvlib.Props.IoTables.srml_table`, `Pvlib.Props.IoTables.names_distinct`, `Pvlib.Props.IoTables.srml_names`.

### C161 Missing values and layouts of SURFRAD, CRN and SOLRAD files

Case analysis; kernel evaluation of the constant tables.

Status: proved.
Theorems: `Pvlib.Props.IoTables.surfrad_missing`, `Pvlib.Props.IoTables.bsrn_missing`, `Pvlib.Props.IoTables.crn_missing`, `Pvlib.Props.IoTables.layouts`, `Pvlib.Props.IoTables.layout_names`.

### C162 Downloads of several files: which files, which order, what is missing

Induction over the list of files with an arbitrary server; calendar arithmetic.

Status: proved. Servers are arbitrary functions from file names to outcomes.
Theorems: `Pvlib.Props.IoTables.days_requested`, `Pvlib.Props.IoTables.day_files_distinct`, `Pvlib.Props.IoTables.months_requested`, `Pvlib.Props.IoTables.month_files_distinct`, `Pvlib.Props.IoTables.loop`, `Pvlib.Props.IoTables.get_days`, `Pvlib.Props.IoTables.surfrad_ignores_map_variables`, `Pvlib.Props.IoTables.get_srml`, `Pvlib.Props.IoTables.get_bsrn`.

### C163 read_bsrn: logical records

Invariant of the scan over the lines.

Status: proved.
Theorems: `Pvlib.Props.IoTables.records_exact`, `Pvlib.Props.IoTables.missing_record`, `Pvlib.Props.IoTables.no_records`, `Pvlib.Props.IoTables.pairs`, `Pvlib.Props.IoTables.lr0100_row`, `Pvlib.Props.IoTables.lr0300_row`, `Pvlib.Props.IoTables.lr0500_row`, `Pvlib.Props.IoTables.bsrn_layout`, `Pvlib.Props.IoTables.bsrn_coordinates`.

### C164 Waiting for asynchronous results: era5 and SolarAnywhere

Induction over the number of polls against an arbitrary server.

Status: proved. Servers and clocks are arbitrary functions.
Theorems: `Pvlib.Props.Polling.era5_answer`, `Pvlib.Props.Polling.era5_timeout`, `Pvlib.Props.Polling.era5_terminates`, `Pvlib.Props.Polling.solaranywhere_answer`, `Pvlib.Props.Polling.solaranywhere_timeout`, `Pvlib.Props.Polling.solaranywhere_terminates`, `Pvlib.Props.Polling.solaranywhere_stuck`.

### C165 read_cams: metadata, time index and units

Induction over the lines; calendar arithmetic; case analysis.

Status: proved.
Theorems: `Pvlib.Props.Cams.header`, `Pvlib.Props.Cams.no_column_line_never_ends`, `Pvlib.Props.Cams.index_subdaily`, `Pvlib.Props.Cams.index_daily`, `Pvlib.Props.Cams.index_monthly`, `Pvlib.Props.Cams.index_unknown_label`, `Pvlib.Props.Cams.integrated`, `Pvlib.Props.Cams.mean`, `Pvlib.Props.Cams.every_step_has_hours`.

### C166 PVGIS files: sections are recovered exactly

Induction over the lines of each section.

Status: proved.
Theorems: `Pvlib.Props.Pvgis.hourly`, `Pvlib.Props.Pvgis.hourly_no_notes`, `Pvlib.Props.Pvgis.hourly_no_header`, `Pvlib.Props.Pvgis.tmy`.

### C167 PVGIS typical years: rolling to local time, coercing the year, horizon

Integer modular arithmetic on list positions; calendar arithmetic.

Status: proved.
Theorems: `Pvlib.Props.Pvgis.roll`, `Pvlib.Props.Pvgis.roll_perm`, `Pvlib.Props.Pvgis.roll_back`, `Pvlib.Props.Pvgis.coerce_and_roll`, `Pvlib.Props.Pvgis.same_moment`, `Pvlib.Props.Pvgis.leap_year_moves`, `Pvlib.Props.Pvgis.no_zone`, `Pvlib.Props.Pvgis.leap_day_refused`, `Pvlib.Props.Pvgis.requested`, `Pvlib.Props.Pvgis.aspect_direction`, `Pvlib.Props.Pvgis.horizon_points`, `Pvlib.Props.Pvgis.horizon_sorted`.

### C168 Weather services: column names, units, missing values

Induction over the list of conversions (no interference between them), case analysis of the tables.

Status: proved.
Theorems: `Pvlib.Props.Services.solcast`, `Pvlib.Props.Services.solargis`, `Pvlib.Props.Services.solargis_clear_tilted`, `Pvlib.Props.Services.nasa`, `Pvlib.Props.Services.era5`, `Pvlib.Props.Services.era5_long_unconverted`, `Pvlib.Props.Services.merra2`, `Pvlib.Props.Services.requested_names`, `Pvlib.Props.Services.era5_requested`, `Pvlib.Props.Services.psm4_names`, `Pvlib.Props.Services.meteonorm_table`.

### C169 Weather services: which time range is requested, how periods are labelled

Integer arithmetic on moments; calendar model.

Status: proved.
Theorems: `Pvlib.Props.Services.moments_respected`, `Pvlib.Props.Services.meteonorm_ignores_offset`, `Pvlib.Props.Services.nasa_local_day`, `Pvlib.Props.Services.solaranywhere_half_range`, `Pvlib.Props.Services.middles`, `Pvlib.Props.Services.psm4_index`, `Pvlib.Props.Services.psm4_no_zone`.

### C170 ACIS values, SolarAnywhere and MERRA-2 metadata, Solargis time resolutions

Induction over pieces and lines; case analysis.

Status: proved.
Theorems: `Pvlib.Props.Services.acis_cells`, `Pvlib.Props.Services.acis_grid`, `Pvlib.Props.Services.acis_altitudes`, `Pvlib.Props.Services.solargis_resolutions`, `Pvlib.Props.Services.solaranywhere_meta`, `Pvlib.Props.Services.solaranywhere_two_colons`, `Pvlib.Props.Services.solaranywhere_missing`, `Pvlib.Props.Services.merra2_header`, `Pvlib.Props.Services.merra2_pairs`.

### C171 get_extra_radiation: every kind of time argument agrees

Calendar model of dates and days of year with real instants; case analysis of types and methods.

Status: proved.
Theorems: `Pvlib.Props.Times.instant_decides`, `Pvlib.Props.Times.index_elementwise`, `Pvlib.Props.Times.utc_day_of_year`, `Pvlib.Props.Times.doy_is_date`, `Pvlib.Props.Times.array_elementwise`, `Pvlib.Props.Times.scalar_raises_iff`, `Pvlib.Props.Times.dateOf_onDay`, `Pvlib.Props.Times.onDay_dateOf`, `Pvlib.Props.Times.readings_utc`.

### C172 Days of year as dates

Calendar arithmetic by induction over months and years.

Status: proved.
Theorems: `Pvlib.Props.Times.doy_is_midnight`, `Pvlib.Props.Times.doy_elementwise`, `Pvlib.Props.Times.doy_whole_microseconds`, `Pvlib.Props.Times.doy_raises_iff`, `Pvlib.Props.Times.doy_counts_on`, `Pvlib.Props.Times.doy_round_trip`.

### C173 localize_to_utc keeps or finds instants

Zones as functions from instants to offsets; case analysis.

Status: proved.
Theorems: `Pvlib.Props.Times.localized_unchanged`, `Pvlib.Props.Times.datetime_first_instant`, `Pvlib.Props.Times.datetime_in_gap`, `Pvlib.Props.Times.pandas_unique`, `Pvlib.Props.Times.pandas_raises_iff`.

### C174 calc_time finds the crossing

brentq as a function satisfying its documented contract (shown satisfiable); microsecond rounding in datetime conversion.

Status: proved.
Theorems: `Pvlib.Props.Times.brentq_exists`, `Pvlib.Props.Times.calc_time_crossing`, `Pvlib.Props.Times.calc_time_errors`, `Pvlib.Props.Times.calc_time_zones`.

### C175 Location: construction, from_tmy, from_epw

Case analysis over dictionaries and keyword passing.

Status: proved.
Theorems: `Pvlib.Props.LocationMethods.init_keeps`, `Pvlib.Props.LocationMethods.init_altitude`, `Pvlib.Props.LocationMethods.init_bad_tz`, `Pvlib.Props.LocationMethods.from_tmy`, `Pvlib.Props.LocationMethods.from_tmy_numbered`, `Pvlib.Props.LocationMethods.from_epw`, `Pvlib.Props.LocationMethods.fractional_tz`, `Pvlib.Props.LocationMethods.keywords_never`.

### C176 Location: solar positions and events are those of its coordinates

Unfolding through the models of solarposition; case analysis of names.

Status: proved.
Theorems: `Pvlib.Props.LocationMethods.solarposition_delegates`, `Pvlib.Props.LocationMethods.rise_set_refuses`, `Pvlib.Props.LocationMethods.rise_set_delegates`.

### C177 Location.get_clearsky: which inputs matter, physical results

Composition of the proved clear-sky models; case analysis over keywords.

Status: proved.
Theorems: `Pvlib.Props.LocationMethods.given_position`, `Pvlib.Props.LocationMethods.computed_position`, `Pvlib.Props.LocationMethods.ineichen_given`, `Pvlib.Props.LocationMethods.pressure_ignored`, `Pvlib.Props.LocationMethods.haurwitz_ignores`, `Pvlib.Props.LocationMethods.accepted_keywords`, `Pvlib.Props.LocationMethods.solis_given`, `Pvlib.Props.LocationMethods.unknown_model`, `Pvlib.Props.LocationMethods.clearsky_physical`.

### C178 fit_sandia recovers the inverter it was given

Roots of the quadratic by its discriminant; uniqueness of interpolation polynomials shows the polyfit contract satisfiable.

Status: proved.
Theorems: `Pvlib.Props.Fits.goodPolyfit_exists`, `Pvlib.Props.Fits.fit_recovers`, `Pvlib.Props.Fits.fit_zero_start`, `Pvlib.Props.Fits.fit_outcome`, `Pvlib.Props.Fits.falling_wrong`.

### C179 latlon_to_xy: distances between sites

Real arithmetic over lists.

Status: proved.
Theorems: `Pvlib.Props.Fits.xy_arcs`, `Pvlib.Props.Fits.xy_one`, `Pvlib.Props.Fits.xy_shift`, `Pvlib.Props.Fits.xy_perm`, `Pvlib.Props.Fits.xy_antimeridian`, `Pvlib.Props.Fits.xy_nan`.

### C180 fit_pvefficiency_adr: bounds, options, weights

Dictionary update lemmas; contract of curve_fit, shown satisfiable.

Status: proved.
Theorems: `Pvlib.Props.Fits.isCurveFit_exists`, `Pvlib.Props.Fits.options_override`, `Pvlib.Props.Fits.adr_inside`, `Pvlib.Props.Fits.adr_no_efficiency`, `Pvlib.Props.Fits.adr_start`, `Pvlib.Props.Fits.adr_weights`.

### C181 Solcast requests

Dictionary lemmas; the service is an arbitrary function of the request.

Status: proved.
Theorems: `Pvlib.Props.Requests.solcast_request`, `Pvlib.Props.Requests.solcast_repeated`, `Pvlib.Props.Requests.solcast_key`.

### C182 Meteonorm requests

A specification of the query by parameter name; case analysis over names and functions.

Status: proved.
Theorems: `Pvlib.Props.Requests.meteonorm_request`, `Pvlib.Props.Requests.meteonorm_albedo_ignored`, `Pvlib.Props.Requests.meteonorm_reply`.

### C183 NSRDB requests ask for the right place

Decimal formatting with round half to even, proved against a value function on digit strings.

Status: proved.
Theorems: `Pvlib.Props.Requests.nsrdb_place`, `Pvlib.Props.Requests.nsrdb_query`.

### C184 CAMS requests

Case analysis; count and substitution lemmas over characters.

Status: proved.
Theorems: `Pvlib.Props.RequestsMore.cams_refused`, `Pvlib.Props.RequestsMore.cams_request`, `Pvlib.Props.RequestsMore.cams_email`, `Pvlib.Props.RequestsMore.cams_reply`.

### C185 PVGIS files: format, metadata, time stamps

Induction over characters; proleptic calendar model; JSON as an inductive type.

Status: proved.
Theorems: `Pvlib.Props.RequestsMore.pvgis_format`, `Pvlib.Props.RequestsMore.pvgis_hourly`, `Pvlib.Props.RequestsMore.pvgis_tmy`, `Pvlib.Props.RequestsMore.pvgis_meta`, `Pvlib.Props.RequestsMore.pvgis_time`.

### C186 Renamed arguments and deprecated functions still work

Dictionary lemmas over arbitrary functions.

Status: proved.
Theorems: `Pvlib.Props.RequestsMore.renamed_old`, `Pvlib.Props.RequestsMore.renamed_other`, `Pvlib.Props.RequestsMore.deprecated_same`, `Pvlib.Props.RequestsMore.message_made`, `Pvlib.Props.RequestsMore.message_text`.

### C187 Runs of a ModelChain leave the caller's data and earlier results alone

A store of objects with in-place writes; frame rule by induction over frames and events.

Status: proved.
Theorems: `Pvlib.Props.Store.call_clean`, `Pvlib.Props.Store.results_keep`, `Pvlib.Props.Store.run_weather`, `Pvlib.Props.Store.losses_once`, `Pvlib.Props.Store.complete_content`.

### C188 Tables, presets and dictionaries given by the caller are not changed

The same store; induction over histories.

Status: proved.
Theorems: `Pvlib.Props.Store.preset_clean`, `Pvlib.Props.Store.presets_history`, `Pvlib.Props.Store.golden_clean`, `Pvlib.Props.Store.trimmed_clean`, `Pvlib.Props.Store.poa_clean`, `Pvlib.Props.Store.merra2_own`, `Pvlib.Props.Store.months_history`.

### C189 Which parameter dictionaries arrays share

Addresses of dictionaries in the store.

Status: proved.
Theorems: `Pvlib.Props.Store.array_dicts`, `Pvlib.Props.Store.arrays_separate`, `Pvlib.Props.Store.inferred_shared`, `Pvlib.Props.Store.inferred_leaks`, `Pvlib.Props.Store.inferred_pvsyst`, `Pvlib.Props.Store.system_losses`.

### C190 Only the bearing between surface and sun matters

Periodicity and evenness of the cosine, pushed through every model; converse from cos a = cos b.

Status: proved.
Theorems: `Pvlib.Props.Symmetry.projection_bearing`, `Pvlib.Props.Symmetry.total_bearing`, `Pvlib.Props.Symmetry.moves`, `Pvlib.Props.Symmetry.bearing_needed`.

### C191 Transposition does not depend on the unit of irradiance

Homogeneity lemmas over Fl for each model.

Status: proved.
Theorems: `Pvlib.Props.Symmetry.sky_scale`, `Pvlib.Props.Symmetry.total_scale`.

### C192 Perez is discontinuous, Perez-Driesse is continuous

Coefficient table generated from the source; continuity of the quadratic spline piece by piece.

Status: proved.
Theorems: `Pvlib.Props.PerezContinuity.names`, `Pvlib.Props.PerezContinuity.name_1990`, `Pvlib.Props.PerezContinuity.perez_jumps`, `Pvlib.Props.PerezContinuity.perez_negative_isotropic`, `Pvlib.Props.PerezContinuity.spline_continuous`, `Pvlib.Props.PerezContinuity.driesse_continuous`.

### C193 Scaling the result of one module is solving the array

Invariance of the diode equation under the scaling; uniqueness of its solutions and of the maximum power point.

Status: proved.
Theorems: `Pvlib.Props.ArrayScaling.diode_array`, `Pvlib.Props.ArrayScaling.array_i_from_v`, `Pvlib.Props.ArrayScaling.array_v_from_i`, `Pvlib.Props.ArrayScaling.array_singlediode`, `Pvlib.Props.ArrayScaling.array_batzelis`.

### C194 A module with no worse parameter yields no less

Comparison of two solutions of the diode equation by contradiction.

Status: proved.
Theorems: `Pvlib.Props.ArrayScaling.better_current`, `Pvlib.Props.ArrayScaling.better_points`.

### C195 Erbs-Driesse: continuous, with continuous slope, within 0.0005 of Erbs

Bernstein coefficients for the polynomial bounds; a C1 extension as an integral of the clamped slope.

Status: proved.
Theorems: `Pvlib.Props.ErbsShape.driesse_near_erbs`, `Pvlib.Props.ErbsShape.driesse_smooth`, `Pvlib.Props.ErbsShape.erbs_jumps`.

### C196 More global irradiance never means less direct irradiance

Monotonicity of (1 - diffuse fraction) * clearness index, piece by piece.

Status: proved. erbs_driesse only up to 1e-14 of ghi/cos(zenith): its rounded coefficients leave jumps of that size; orgill_hollands is shown not to have the property
Theorems: `Pvlib.Props.ErbsShape.erbs_rises`, `Pvlib.Props.ErbsShape.boland_rises`, `Pvlib.Props.ErbsShape.driesse_rises`, `Pvlib.Props.ErbsShape.orgill_falls`.

### C197 Symmetries of the single-axis tracker

Complex conjugation of the projected sun vector, pushed through backtracking, clipping and orientation.

Status: proved. hypothesis psza != 180 of the two exchanges holds whenever the sun is not behind the plane of the axis (not_behind)
Theorems: `Pvlib.Props.TrackerSymmetry.turn`, `Pvlib.Props.TrackerSymmetry.reverse_axis`, `Pvlib.Props.TrackerSymmetry.mirror`, `Pvlib.Props.TrackerSymmetry.not_behind`.

### C198 Long series can be processed in pieces

Recurrences of C07, C11 and C12 shifted to the cut, induction over the rest.

Status: proved.
Theorems: `Pvlib.Props.Continuation.snow_continues`, `Pvlib.Props.Continuation.kimber_continues`, `Pvlib.Props.Continuation.hsu_continues`.

### C199 The two hemispheres are mirror images

Parity of the trigonometric functions through the clamps of the azimuth formula; arccos(-x) = pi - arccos(x).

Status: proved.
Theorems: `Pvlib.Props.Hemispheres.zenith_mirrored`, `Pvlib.Props.Hemispheres.azimuth_mirrored`, `Pvlib.Props.Hemispheres.rise_set_mirrored`, `Pvlib.Props.Hemispheres.days_add_up`.

### C200 Bearings and turned modules in infinite_sheds

Periodicity of the cosine through every term; two turns over are a whole turn.

Status: proved.
Theorems: `Pvlib.Props.BifacialFlip.poa_bearing`, `Pvlib.Props.BifacialFlip.flip`.

### C201 How strings are grouped into arrays does not matter

Per-array results of C95 per string; sums over strings regrouped by fibres in the commutative monoid of floats.

Status: proved.
Theorems: `Pvlib.Props.ChainStrings.regrouped_pvwatts`, `Pvlib.Props.ChainStrings.regrouped_sandia`.

### C202 No light, no power

Zero-or-NaN is closed under every operation that follows; carried through the specification of a run (C95).

Status: proved.
Theorems: `Pvlib.Props.ChainDark.dark_plane`, `Pvlib.Props.ChainDark.dark_effective`, `Pvlib.Props.ChainDark.dark_poa`, `Pvlib.Props.ChainDark.dark_weather`.

### C203 The rows of a ModelChain run are independent

The specification of a run (C95) read row by row.

Status: proved.
Theorems: `Pvlib.Props.ChainRows.rows_independent`, `Pvlib.Props.ChainRows.rows_independent_poa`, `Pvlib.Props.ChainRows.rows_independent_eff`.

### C204 A tracker that does not turn is a fixed mount

Equal normals give equal angles of incidence (C03's geometry); a clip to one point is constant.

Status: proved.
Theorems: `Pvlib.Props.LockedTracker.same_normal`, `Pvlib.Props.LockedTracker.locked_rotation`, `Pvlib.Props.LockedTracker.locked_is_fixed`.

### C205 Overcast skies and bright ground

The four formulas at dni = 0, ghi = dhi, including 0/0 handling; algebra on the sum of components.

Status: proved.
Theorems: `Pvlib.Props.Overcast.overcast_isotropic`, `Pvlib.Props.Overcast.uniform_surroundings`, `Pvlib.Props.Overcast.albedo_step`, `Pvlib.Props.Overcast.albedo_monotone`, `Pvlib.Props.Overcast.facing_away_falls`.

### C206 The example spectral response is the spline through its table

Uniqueness by an exact rational certificate for the linear system of the spline; existence by truncated powers; bounds by Bernstein form on each interval.

Status: proved. Splines in exact arithmetic.
Theorems: `Pvlib.Props.SpectralResponse.spline_unique`, `Pvlib.Props.SpectralResponse.spline_exists`, `Pvlib.Props.SpectralResponse.response_pos`, `Pvlib.Props.SpectralResponse.response_le`, `Pvlib.Props.SpectralResponse.response_overshoots`, `Pvlib.Props.SpectralResponse.response_data`, `Pvlib.Props.SpectralResponse.response_series`.

### C207 Tables of the SAM libraries

Induction over lines and words.

Status: proved. Splitting lines into typed fields is pandas.
Theorems: `Pvlib.Props.SamTable.sam_units_ignored`, `Pvlib.Props.SamTable.sam_cells`, `Pvlib.Props.SamTable.adr_parses`, `Pvlib.Props.SamTable.adr_comma`.

### C208 Readers close what they open, and nothing else

Case analysis over sources with a trace of events.

Status: proved.
Theorems: `Pvlib.Props.Files.files_closed`, `Pvlib.Props.Files.files_parsed`, `Pvlib.Props.Files.case_matters`.

### C209 Scalars, arrays and keywords of the Newton solver

Induction over the arguments.

Status: proved.
Theorems: `Pvlib.Props.NewtonInputs.shape_largest`, `Pvlib.Props.NewtonInputs.common_shape`, `Pvlib.Props.NewtonInputs.no_broadcast`, `Pvlib.Props.NewtonInputs.user_keywords_win`, `Pvlib.Props.NewtonInputs.first_index`.

### C210 The tables built into pvlib

Double entry: a script reads the Python source again, scales to integers and states equality with the model's tables; evaluated by the kernel.

Status: proved. A check of transcription: the kernel compares two independently written copies of the data; scripts/tables.py reads the Python source.
Theorems: `Pvlib.Props.Tables.spa_L0`, `Pvlib.Props.Tables.spa_L1`, `Pvlib.Props.Tables.spa_L2`, `Pvlib.Props.Tables.spa_L3`, `Pvlib.Props.Tables.spa_L4`, `Pvlib.Props.Tables.spa_L5`, `Pvlib.Props.Tables.spa_B0`, `Pvlib.Props.Tables.spa_B1`, `Pvlib.Props.Tables.spa_R0`, `Pvlib.Props.Tables.spa_R1`, `Pvlib.Props.Tables.spa_R2`, `Pvlib.Props.Tables.spa_R3`, `Pvlib.Props.Tables.spa_R4`, `Pvlib.Props.Tables.nutation_coefficients`, `Pvlib.Props.Tables.nutation_arguments`, `Pvlib.Props.Tables.spectrl2_wavelength`, `Pvlib.Props.Tables.spectrl2_et`, `Pvlib.Props.Tables.spectrl2_vapor`, `Pvlib.Props.Tables.spectrl2_ozone`, `Pvlib.Props.Tables.spectrl2_mixed`, `Pvlib.Props.Tables.perez_coefficients`, `Pvlib.Props.Tables.dirint_coefficients`, `Pvlib.Props.Tables.srml_names`, `Pvlib.Props.Tables.midc_names`, `Pvlib.Props.Tables.nasa_names`, `Pvlib.Props.Tables.era5_names`, `Pvlib.Props.Tables.merra2_names`, `Pvlib.Props.Tables.psm4_names`, `Pvlib.Props.Tables.psm4_request_names`, `Pvlib.Props.Tables.meteonorm_names`, `Pvlib.Props.Tables.meteonorm_steps`, `Pvlib.Props.Tables.cell_types`, `Pvlib.Props.Tables.tmy2_widths`, `Pvlib.Props.Tables.tmy2_names`, `Pvlib.Props.Tables.bsrn_columns_0100`, `Pvlib.Props.Tables.bsrn_fields_0100`, `Pvlib.Props.Tables.bsrn_columns_0300`, `Pvlib.Props.Tables.bsrn_fields_0300`, `Pvlib.Props.Tables.bsrn_columns_0500`, `Pvlib.Props.Tables.bsrn_fields_0500`, `Pvlib.Props.Tables.solcast_names`, `Pvlib.Props.Tables.solargis_names`, `Pvlib.Props.Tables.solargis_minus_nine`, `Pvlib.Props.Tables.surface_albedos`, `Pvlib.Props.Tables.water_color`, `Pvlib.Props.Tables.water_roughness`, `Pvlib.Props.Tables.crn_missing_codes`, `Pvlib.Props.Tables.sapm_temperatures`, `Pvlib.Props.Tables.pvsyst_temperatures`, `Pvlib.Props.Tables.huld_pvgis5`, `Pvlib.Props.Tables.huld_pvgis6`, `Pvlib.Props.Tables.perez_driesse_splines`.

### C211 Newton's method finds the single diode solution

The voltage is convex and increasing, the current concave and decreasing in the diode voltage; Newton's method on a convex increasing function, with the error bounded by the last step.

Status: proved. Exact arithmetic; scipy's scalar newton is specified as newtonRun in Props/SingleDiodeNewton.lean (the vectorised one follows the same iterates, newtonSeq).
Theorems: `Pvlib.Props.SingleDiode.newton_iFromV`, `Pvlib.Props.SingleDiode.newton_iFromV_all`, `Pvlib.Props.SingleDiode.newton_vFromI`, `Pvlib.Props.SingleDiode.newton_vFromI_all`, `Pvlib.Props.SingleDiode.solution_at_voltage`, `Pvlib.Props.SingleDiode.solution_at_current`.

### C212 The bracket of method='chandrupatla'

Reduction to C67 and C68; for the pole, the intermediate value theorem between the pole and estimate_voc.

Status: proved. The root finder is a parameter.
Theorems: `Pvlib.Props.SingleDiode.chandrupatla_finds`, `Pvlib.Props.SingleDiode.chandrupatla_wrong_root`.

### C213 Longitudes a whole turn apart are one place

Longitude enters only below a remainder by 360 (or 1, in turns), which does not see whole turns.

Status: proved. 'nrel_c' and 'pyephem' call libraries that are not modelled.
Theorems: `Pvlib.Props.Longitude.spa_turn`, `Pvlib.Props.Longitude.ephemeris_turn`, `Pvlib.Props.Longitude.position_turn`, `Pvlib.Props.Longitude.rise_set_spa_turn`, `Pvlib.Props.Longitude.hour_angle_turn`, `Pvlib.Props.Longitude.zenith_turn`, `Pvlib.Props.Longitude.rise_set_geometric_turn`.

### C214 The two sides of a sheet

Opposite normals have opposite scalar products with the sun and opposite cosines of tilt; sum the components.

Status: proved.
Theorems: `Pvlib.Props.TwoSides.opposite_flip`, `Pvlib.Props.TwoSides.aoi_back`, `Pvlib.Props.TwoSides.direct_and_ground`, `Pvlib.Props.TwoSides.isotropic_both`, `Pvlib.Props.TwoSides.haydavies_both`, `Pvlib.Props.TwoSides.king_both`.

### C215 The night tare of a ModelChain

The dark SAPM module (C79) carried through scaling, ohmic and system losses of the specification of a run (C95) to the inverter.

Status: proved.
Theorems: `Pvlib.Props.ChainTare.night_tare`, `Pvlib.Props.ChainTare.night_nan`.

### C216 The Sandia preset at night, from the weather

Zero times a finite number is zero: every factor of the optical chain is shown finite, missing air mass included; then C215. For the tracker the missing orientation is carried through to the inverter.

Status: proved.
Theorems: `Pvlib.Props.ChainNight.sapm_night`, `Pvlib.Props.ChainNight.tracker_night`.

### C217 More light and cooler cells never give less power (PVWatts chains)

Closed form of the reported DC and AC power from the specification of a run (C95), then monotonicity of the inverter curve (C05).

Status: proved.
Theorems: `Pvlib.Props.ChainMono.dc_value`, `Pvlib.Props.ChainMono.ac_value`, `Pvlib.Props.ChainMono.same_losses`, `Pvlib.Props.ChainMono.dc_mono`, `Pvlib.Props.ChainMono.ac_mono`.

### C218 Transposition has no jumps

Closed forms with max; the terms divided by the global irradiance are bounded and multiplied by the diffuse irradiance, which vanishes there.

Status: proved.
Theorems: `Pvlib.Props.TransContinuity.total_continuous`.

### C219 MIDC files: moments, time zones, columns

Parser of the concatenated date and time inverted on every written form; position arithmetic for the columns.

Status: proved.
Theorems: `Pvlib.Props.Midc.midc_file`, `Pvlib.Props.Midc.midc_bad_date`, `Pvlib.Props.Midc.midc_no_date`, `Pvlib.Props.Midc.nrel`, `Pvlib.Props.Midc.nrel_error`, `Pvlib.Props.Midc.shifted`, `Pvlib.Props.Midc.station_maps`.

### C220 pvfactors_timeseries: what is simulated, what is reported

The engine of the package pvfactors is a parameter; np.full_like is modelled with the type of its array.

Status: proved.
Theorems: `Pvlib.Props.Pvfactors.report`, `Pvlib.Props.Pvfactors.from_end`, `Pvlib.Props.Pvfactors.cut_off`, `Pvlib.Props.Pvfactors.wrong_length`.

### C221 The sun of the solar position algorithm does not jump

Continuity of each stage; angles reduced modulo 360 are compared through their sines and cosines; the direction determines elevation and azimuth.

Status: proved.
Theorems: `Pvlib.Props.SpaContinuity.spa_continuous`, `Pvlib.Props.SpaContinuity.apparent_continuous`, `Pvlib.Props.SpaContinuity.horizon_somewhere`.

### C222 An error of measured global irradiance is amplified a few times at most

Lipschitz constant of each piece from its derivative, plus the gaps at the joints; clearness index is capped where global irradiance exceeds the extraterrestrial.

Status: proved.
Theorems: `Pvlib.Props.DhiStable.erbs_steady`, `Pvlib.Props.DhiStable.driesse_steady`, `Pvlib.Props.DhiStable.orgill_steady`, `Pvlib.Props.DhiStable.boland_steady`.

### C223 Warmer air and less wind never give more power (PVWatts chains)

C51 for the cell temperature, C97 for the light, C217 for the power.

Status: proved.
Theorems: `Pvlib.Props.ChainWarm.cell_cooler`, `Pvlib.Props.ChainWarm.dc_cooler`, `Pvlib.Props.ChainWarm.ac_cooler`.

### C224 A hotter module gives less voltage and less power (De Soto, CEC and PVsyst models)

K^3 exp(-b/K)(exp(u/K)-1) grows by at least the factor 1 + (b-u)(1/K'-1/K) (convexity of the exponential); then compare the curves at equal current.

Status: proved.
Theorems: `Pvlib.Props.Warm.voltage_falls`, `Pvlib.Props.Warm.desoto_falls`, `Pvlib.Props.Warm.cec_falls`, `Pvlib.Props.Warm.pvsyst_falls`, `Pvlib.Props.Warm.desoto_no_gain`, `Pvlib.Props.Warm.mpp_outweighs`, `Pvlib.Props.Warm.desoto_outweighs`.

### C225 More ozone, water vapour or aerosol in Bird's clear sky

Monotonicity of each transmittance: power means for ozone and water, sign of the derivative for aerosol.

Status: proved.
Theorems: `Pvlib.Props.BirdHaze.absorbers`, `Pvlib.Props.BirdHaze.aerosols`.

### C226 Rain, dust, snow and warmth: soiling and snow models are monotone

Induction along the recurrences of C07, C11 and C12.

Status: proved.
Theorems: `Pvlib.Props.Dirt.kimber_cleaner`, `Pvlib.Props.Dirt.hsu_cleaner`, `Pvlib.Props.Dirt.hsu_fine_dust`, `Pvlib.Props.Dirt.snow_less`.

### C227 More light and cooler modules never give less DC power (De Soto and CEC chains)

Chain specification (C97) composed with the single diode power theorems (C224).

Status: proved.
Theorems: `Pvlib.Props.ChainDiode.params`, `Pvlib.Props.ChainDiode.dc_value`, `Pvlib.Props.ChainDiode.more_light`, `Pvlib.Props.ChainDiode.warmer`, `Pvlib.Props.ChainDiode.chain_built`.

### C228 More DC power never gives less AC power (Sandia and ADR inverters), until the Sandia parabola turns

Factorisation of curve minus rating; difference quotients of the parabola.

Status: proved.
Theorems: `Pvlib.Props.InverterMono.sandia_mono`, `Pvlib.Props.InverterMono.sandia_rated_iff`, `Pvlib.Props.InverterMono.sandia_overload`, `Pvlib.Props.InverterMono.sandia_le_dc`, `Pvlib.Props.InverterMono.adr_value`, `Pvlib.Props.InverterMono.adr_mono`, `Pvlib.Props.InverterMono.adr_le_dc`, `Pvlib.Props.InverterMono.adr_rated_iff`.

### C229 Townsend's monthly snow loss: value, and more snow never means less loss

Unfolding to a real formula; monotonicity factor by factor.

Status: proved.
Theorems: `Pvlib.Props.Townsend.value`, `Pvlib.Props.Townsend.worse`, `Pvlib.Props.Townsend.more_falls`, `Pvlib.Props.Townsend.counts`.

### C230 What the wavelet variability model computes

List sums turned into sums over integer intervals; unfolding.

Status: proved.
Theorems: `Pvlib.Props.Wavelet.value`, `Pvlib.Props.Wavelet.average_eq`, `Pvlib.Props.Wavelet.reduction_eq`, `Pvlib.Props.Wavelet.reduction_mono`.

### C231 Air mass formulas, and that a lower sun means more air mass

Unfolding; sign of the derivative of the denominators with Jordan's inequality and root bounds; polynomial identities.

Status: proved.
Theorems: `Pvlib.Props.AirMass.airmass_value`, `Pvlib.Props.AirMass.airmass_increasing`, `Pvlib.Props.AirMass.youngirvine_peak`, `Pvlib.Props.AirMass.kastenyoung_zenith`, `Pvlib.Props.AirMass.standard_atmosphere`, `Pvlib.Props.AirMass.precipitable_water`, `Pvlib.Props.AirMass.broadband_aerosol`.

### C232 The current-voltage curve is concave; fill factor

Strict convexity of the exponential; comparing the maximum power point with a nearby point on the chord.

Status: proved.
Theorems: `Pvlib.Props.FillFactor.diode_concave`, `Pvlib.Props.FillFactor.iFromV_concave`, `Pvlib.Props.FillFactor.fill_factor`.

### C233 Huld's model with the coefficients it ships

Polynomial inequalities in the logarithm of irradiance and temperature; sign of the derivative; bounds of the logarithm.

Status: proved.
Theorems: `Pvlib.Props.Huld.huld_shipped`.

### C234 PVsyst modules: more light never gives less power, warmer modules never give more

Derivative of irradiance times shunt resistance; comparison of two I-V curves at the maximum power point of the darker one; the specification of a chain run.

Status: proved.
Theorems: `Pvlib.Props.PvsystLight.shunt_product`, `Pvlib.Props.PvsystLight.current_increases'`, `Pvlib.Props.PvsystLight.pvsyst_power`, `Pvlib.Props.PvsystLight.dc_value`, `Pvlib.Props.PvsystLight.more_light`, `Pvlib.Props.PvsystLight.warmer`.

### C235 Chains with Sandia modules: what they report, and more light never gives less

Specification of a chain run; the equations; comparison term by term.

Status: proved.
Theorems: `Pvlib.Props.SapmLight.light_mono`, `Pvlib.Props.SapmLight.slope_of_signs`, `Pvlib.Props.SapmLight.dc_columns`, `Pvlib.Props.SapmLight.more_light`.

### C236 Denser rows

Monotonicity of the arc cosine, of the cosine of the edge of view in the spacing, of integrals.

Status: proved.
Theorems: `Pvlib.Props.DenseRows.tracker_denser`, `Pvlib.Props.DenseRows.shade_sparser`, `Pvlib.Props.DenseRows.views_denser`, `Pvlib.Props.DenseRows.sky_mean_denser`, `Pvlib.Props.DenseRows.masking_denser`, `Pvlib.Props.DenseRows.passias_denser`, `Pvlib.Props.DenseRows.ground_denser`.

### C237 More losses, less power

Specification of chain runs; products of factors; monotone inverter.

Status: proved.
Theorems: `Pvlib.Props.ChainLosses.factor`, `Pvlib.Props.ChainLosses.left_anti`, `Pvlib.Props.ChainLosses.left_le_one`, `Pvlib.Props.ChainLosses.left_all`, `Pvlib.Props.ChainLosses.same_but_losses`, `Pvlib.Props.ChainLosses.noLess_of`, `Pvlib.Props.ChainLosses.dc_less`, `Pvlib.Props.ChainLosses.ac_less`, `Pvlib.Props.ChainLosses.no_reflection`, `Pvlib.Props.ChainLosses.no_reflection_dc`.

### C238 Ohmic wiring losses of a chain

Specification of chain runs; algebra; monotone inverter.

Status: proved.
Theorems: `Pvlib.Props.ChainWires.lost_rated`, `Pvlib.Props.ChainWires.lost_mono`, `Pvlib.Props.ChainWires.same_but_wires`, `Pvlib.Props.ChainWires.wires_less`, `Pvlib.Props.ChainWires.no_more`, `Pvlib.Props.ChainWires.ac_no_more`.

### C239 How the sky models compare

Unfolding; algebra; bounds of sine and scalar product.

Status: proved.
Theorems: `Pvlib.Props.SkyModels.isotropic_sky`, `Pvlib.Props.SkyModels.haydavies_sky`, `Pvlib.Props.SkyModels.reindl_sky`, `Pvlib.Props.SkyModels.klucher_sky`, `Pvlib.Props.SkyModels.king_sky`, `Pvlib.Props.SkyModels.klucher_vs_isotropic`, `Pvlib.Props.SkyModels.haydavies_vs_isotropic`, `Pvlib.Props.SkyModels.reindl_vs_haydavies`, `Pvlib.Props.SkyModels.king_vs_isotropic`, `Pvlib.Props.SkyModels.global_follows`.

### C240 Better ventilated mountings are cooler

Unfolding; bounds of the exponential.

Status: proved.
Theorems: `Pvlib.Props.Mountings.constructed`, `Pvlib.Props.Mountings.sandia_value`, `Pvlib.Props.Mountings.sandia_order`, `Pvlib.Props.Mountings.pvsyst_value`, `Pvlib.Props.Mountings.pvsyst_order`.

### C241 Brighter ground under the arrays of a chain

Specification of chain runs; linearity in the albedo.

Status: proved.
Theorems: `Pvlib.Props.ChainGround.more_light`, `Pvlib.Props.ChainGround.more_effective`, `Pvlib.Props.ChainGround.no_less`, `Pvlib.Props.ChainGround.dc_no_less`, `Pvlib.Props.ChainGround.column_wins`.

### C242 The course of the sun through the day, and the length of the day

Monotonicity of cosine, arc cosine and tangent; intermediate value theorem.

Status: proved.
Theorems: `Pvlib.Props.DayCourse.nearer_noon`, `Pvlib.Props.DayCourse.nearer_noon_strict`, `Pvlib.Props.DayCourse.zenith_midnight`, `Pvlib.Props.DayCourse.midnight_sun`, `Pvlib.Props.DayCourse.polar_night`, `Pvlib.Props.DayCourse.exist_iff`, `Pvlib.Props.DayCourse.longer_north`, `Pvlib.Props.DayCourse.longer_summer`, `Pvlib.Props.DayCourse.earlier_later`, `Pvlib.Props.DayCourse.twelve_hours`.

### C243 The course of the declination through the year, and the longest day

Monotonicity of the cosine between its extremes; the cosine at odd multiples of a 1460th of a turn.

Status: proved.
Theorems: `Pvlib.Props.YearCourse.cooper_rises`, `Pvlib.Props.YearCourse.cooper_falls`, `Pvlib.Props.YearCourse.cooper_solstices`, `Pvlib.Props.YearCourse.days_lengthen`, `Pvlib.Props.YearCourse.days_shorten`, `Pvlib.Props.YearCourse.longest_day`, `Pvlib.Props.YearCourse.day_exists`, `Pvlib.Props.YearCourse.noon_height`.

### C244 The course of a clear day

Composition of the monotonicity of air mass, clear-sky models and zenith.

Status: proved.
Theorems: `Pvlib.Props.ClearDay.ineichen_lower_sun`, `Pvlib.Props.ClearDay.symmetric`, `Pvlib.Props.ClearDay.haurwitz_day`, `Pvlib.Props.ClearDay.haurwitz_daylight`, `Pvlib.Props.ClearDay.solis_day`, `Pvlib.Props.ClearDay.ineichen_day`.

<!-- END TABLE -->
