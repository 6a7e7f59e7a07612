{"id": "C01", "title": "Sandia inverter: AC output limits", "statement": "inverter.sandia never returns more than Paco (given Paco >= 0), returns exactly -|Pnt| whenever p_dc < Pso, and in the operating range returns min(Paco, efficiency curve).", "quantifier": "all DC voltages and powers and all parameter sets, including NaN and infinite inputs", "why_tests_cant": "infinitely many real inputs (and NaN/inf); tests sample a few", "anchors": ["pvlib/inverter.py:sandia", "pvlib/inverter.py:_sandia_limits", "pvlib/inverter.py:_sandia_eff"]}
{"id": "C02", "title": "Sandia inverter: rated point and start-up point", "statement": "At v_dc = Vdco and p_dc = Pdco the modelled AC power is exactly Paco; at v_dc = Vdco and p_dc = Pso it is exactly min(Paco, 0).", "quantifier": "all parameter sets with Pdco != Pso (Pdco >= Pso)", "why_tests_cant": "infinitely many real inputs (and NaN/inf); tests sample a few", "anchors": ["pvlib/inverter.py:sandia", "pvlib/inverter.py:_sandia_eff"]}
{"id": "C03", "title": "sandia_multi agrees with sandia and ignores input order", "statement": "sandia_multi raises ValueError iff the two lists have different lengths; with one MPPT input it returns what sandia returns (when the DC power is non-zero or in the night range); permuting the (v, p) inputs together never changes the result; splitting one input into several at the same voltage leaves the result unchanged.", "quantifier": "all lists of inputs of any length, all parameters", "why_tests_cant": "unbounded number of MPPT inputs and real values", "anchors": ["pvlib/inverter.py:sandia_multi"]}
{"id": "C04", "title": "ADR inverter output range", "statement": "inverter.adr returns NaN or a value between -|Pnt| and Pacmax; it is NaN for every finite non-zero DC voltage outside the widened voltage window, and exactly the night tare when the DC voltage is zero (Pacmax permitting).", "quantifier": "all inputs and parameters", "why_tests_cant": "infinitely many real inputs (and NaN/inf); tests sample a few", "anchors": ["pvlib/inverter.py:adr"]}
{"id": "C05", "title": "PVWatts inverter: range, zero, NaN, energy conservation, monotonicity", "statement": "inverter.pvwatts is NaN exactly when pdc is NaN (finite parameters, pdc0 > 0), otherwise lies in [0, eta_inv_nom*pdc0]; it is 0 at pdc = 0; with the default efficiencies it never exceeds the DC power; and it is non-decreasing in pdc up to 30 times the nameplate.", "quantifier": "all pdc, pdc0 > 0, efficiencies", "why_tests_cant": "infinitely many real inputs (and NaN/inf); tests sample a few", "anchors": ["pvlib/inverter.py:pvwatts", "pvlib/inverter.py:pvwatts_multi"]}
{"id": "C06", "title": "Transformer model solves its loss balance", "statement": "transformer.simple_efficiency returns the output power P satisfying P + no_load*rating + load_loss*P^2/rating = input power; hence output <= input, zero output exactly at the no-load loss, strictly increasing in the input.", "quantifier": "all input powers, loss parameters >= 0, rating > 0 with non-negative discriminant", "why_tests_cant": "infinitely many real inputs (and NaN/inf); tests sample a few", "anchors": ["pvlib/transformer.py:simple_efficiency"]}
{"id": "C07", "title": "NREL snow coverage equals a step-by-step physical recurrence", "statement": "snow.coverage_nrel (vectorised with cumsum/groupby/ffill/clip) returns at each time the value of the simple recurrence: 1 on a new-snowfall step; otherwise max(0, previous coverage - slide amount).", "quantifier": "all time series of any length, any increasing index, with or without snow depth", "why_tests_cant": "unbounded series; vectorised vs. sequential equivalence", "anchors": ["pvlib/snow.py:coverage_nrel", "pvlib/snow.py:fully_covered_nrel"]}
{"id": "C08", "title": "NREL snow coverage stays within [0,1], resets to 1 on snowfall and never grows otherwise", "statement": "If initial_coverage is in [0,1] then every coverage value is in [0,1]; it is 1 on every new-snowfall step; between snowfalls it never increases.", "quantifier": "all time series of any length", "why_tests_cant": "unbounded series", "anchors": ["pvlib/snow.py:coverage_nrel"]}
{"id": "C09", "title": "dc_loss_nrel rounds coverage up to whole strings", "statement": "snow.dc_loss_nrel returns k/num_strings for the least integer k >= coverage*num_strings: it is in [0,1], at least the coverage, less than coverage + 1/num_strings, and 0 iff coverage is 0.", "quantifier": "all coverages in [0,1] and all positive integers num_strings", "why_tests_cant": "infinitely many real inputs (and NaN/inf); tests sample a few", "anchors": ["pvlib/snow.py:dc_loss_nrel"]}
{"id": "C10", "title": "Townsend snow loss is a fraction and is zero with no snow", "statement": "snow.loss_townsend returns NaN or a value in [0,1] for every month; and for finite sane inputs exactly 0 when neither this month nor the previous month (cyclically) had snow events.", "quantifier": "all monthly series of any length and all parameters", "why_tests_cant": "infinitely many real inputs (and NaN/inf); tests sample a few", "anchors": ["pvlib/snow.py:loss_townsend", "pvlib/snow.py:_townsend_effective_snow"]}
{"id": "C11", "title": "Kimber soiling equals a day-by-day recurrence with cleaning events", "statement": "soiling.kimber (cumsum minus forward-filled cleaning, capped) equals at each step: 0 if the step is in a grace window or is a wash date, else min(max_soiling, previous + rate); so it is always in [0, max_soiling].", "quantifier": "all rainfall series of any length, any thresholds, wash dates, initial soiling >= 0", "why_tests_cant": "unbounded series", "anchors": ["pvlib/soiling.py:kimber"]}
{"id": "C12", "title": "HSU soiling ratio range and reset", "statement": "soiling.hsu returns 1 right after every cleaning event, stays within (1-0.3437, 1], and never increases between cleanings.", "quantifier": "all rainfall/PM series of any length", "why_tests_cant": "unbounded series", "anchors": ["pvlib/soiling.py:hsu"]}
{"id": "C13", "title": "Single-axis tracker respects its rotation limits and reports NaN at night", "statement": "tracking.singleaxis: for every sample with apparent_zenith > 90 all four outputs are NaN; otherwise tracker_theta lies in [min_angle, max_angle], surface_tilt in [0,180], surface_azimuth in [0,360) and aoi in [0,180].", "quantifier": "all solar positions and tracker parameters", "why_tests_cant": "infinitely many real inputs (and NaN/inf); tests sample a few", "anchors": ["pvlib/tracking.py:singleaxis"]}
{"id": "C14", "title": "Tracker surface orientation is the orientation of its normal", "statement": "calc_surface_orientation returns a tilt/azimuth pair whose unit vector (sin t sin a, sin t cos a, cos t) is exactly the normal of the rotated tracker plane.", "quantifier": "all tracker rotations, axis tilts and azimuths", "why_tests_cant": "infinitely many real inputs (and NaN/inf); tests sample a few", "anchors": ["pvlib/tracking.py:calc_surface_orientation", "pvlib/tracking.py:_unit_normal"]}
{"id": "C15", "title": "True tracking minimises the angle of incidence", "statement": "Without backtracking and rotation limits, the rotation chosen by singleaxis gives an angle of incidence no larger than that of any other rotation about the same axis.", "quantifier": "all sun positions above the horizon, all axis orientations, all alternative rotations", "why_tests_cant": "optimality against a continuum of alternatives", "anchors": ["pvlib/tracking.py:singleaxis", "pvlib/shading.py:projected_solar_zenith_angle", "pvlib/irradiance.py:aoi"]}
{"id": "C16", "title": "Backtracking eliminates row-to-row shade", "statement": "For a sun above the slope plane, the backtracked rotation gives zero shaded fraction according to shading.shaded_fraction1d with the same geometry, and never rotates further from horizontal-of-slope than true tracking demands.", "quantifier": "all sun positions with cos(psza - cross_axis_tilt) >= 0, all gcr in (0,1], all cross-axis tilts", "why_tests_cant": "cross-module geometric guarantee over a continuum", "anchors": ["pvlib/tracking.py:singleaxis", "pvlib/shading.py:shaded_fraction1d"]}
{"id": "C17", "title": "aoi_projection is the dot product of the sun and normal unit vectors", "statement": "irradiance.aoi_projection equals the dot product of the two unit vectors, hence lies in [-1,1] without clipping, is invariant under a common rotation of both azimuths, and aoi is in [0,180] with cos(aoi) = projection.", "quantifier": "all angles", "why_tests_cant": "infinitely many real inputs (and NaN/inf); tests sample a few", "anchors": ["pvlib/irradiance.py:aoi_projection", "pvlib/irradiance.py:aoi"]}
{"id": "C18", "title": "Beam component is non-negative and is dni*cos(aoi) in front of the plane", "statement": "irradiance.beam_component is NaN or >= 0, equals dni*projection when that is positive, 0 when the sun is behind the plane, and equals the poa_direct of poa_components for the matching aoi.", "quantifier": "all angles and irradiances", "why_tests_cant": "infinitely many real inputs (and NaN/inf); tests sample a few", "anchors": ["pvlib/irradiance.py:beam_component", "pvlib/irradiance.py:poa_components"]}
{"id": "C19", "title": "Plane-of-array components add up", "statement": "Whatever transposition model is selected, poa_global = poa_direct + poa_diffuse and poa_diffuse = poa_sky_diffuse + poa_ground_diffuse, and poa_direct is never negative.", "quantifier": "all inputs and all transposition models", "why_tests_cant": "infinitely many real inputs (and NaN/inf); tests sample a few", "anchors": ["pvlib/irradiance.py:get_total_irradiance", "pvlib/irradiance.py:poa_components"]}
{"id": "C20", "title": "Sky-diffuse components sum to the total", "statement": "With return_components=True, isotropic, haydavies, reindl and perez return components whose sum is poa_sky_diffuse. (For perez_driesse this is false of the code when the total is clipped at zero: a witness is proved.)", "quantifier": "all finite inputs", "why_tests_cant": "infinitely many real inputs (and NaN/inf); tests sample a few", "anchors": ["pvlib/irradiance.py:isotropic", "pvlib/irradiance.py:haydavies", "pvlib/irradiance.py:reindl", "pvlib/irradiance.py:perez", "pvlib/irradiance.py:perez_driesse"]}
{"id": "C21", "title": "A horizontal plane sees the whole diffuse sky", "statement": "At surface_tilt = 0 with the sun well above the horizon, isotropic, haydavies, reindl, perez and perez_driesse all return exactly dhi and the ground-diffuse term is 0, so that poa_global = dhi + dni*cos(zenith).", "quantifier": "all irradiances and sun positions with zenith <= 85", "why_tests_cant": "infinitely many real inputs (and NaN/inf); tests sample a few", "anchors": ["pvlib/irradiance.py:get_sky_diffuse", "pvlib/irradiance.py:get_ground_diffuse"]}
{"id": "C22", "title": "Sky diffuse is non-negative", "statement": "Every transposition model returns NaN or a non-negative value for non-negative dhi, dni, ghi and dni_extra > 0 with dni <= dni_extra.", "quantifier": "all inputs in range, all models", "why_tests_cant": "infinitely many real inputs (and NaN/inf); tests sample a few", "anchors": ["pvlib/irradiance.py:get_sky_diffuse"]}
{"id": "C23", "title": "GHI decomposition closes", "statement": "erbs, erbs_driesse, orgill_hollands, boland and louche return dni and dhi with ghi = dhi + dni*cos(zenith) for every finite input, and dni >= 0, also on rows flagged as bad.", "quantifier": "all finite ghi, all zeniths with default or user thresholds", "why_tests_cant": "infinitely many real inputs (and NaN/inf); tests sample a few", "anchors": ["pvlib/irradiance.py:erbs", "pvlib/irradiance.py:erbs_driesse", "pvlib/irradiance.py:orgill_hollands", "pvlib/irradiance.py:boland", "pvlib/irradiance.py:louche"]}
{"id": "C24", "title": "Diffuse fraction is a fraction", "statement": "For ghi >= 0, erbs, erbs_driesse, orgill_hollands and boland return 0 <= dhi <= ghi.", "quantifier": "all ghi >= 0 and zeniths", "why_tests_cant": "polynomial bounds over a continuum", "anchors": ["pvlib/irradiance.py:erbs", "pvlib/irradiance.py:erbs_driesse", "pvlib/irradiance.py:orgill_hollands", "pvlib/irradiance.py:boland"]}
{"id": "C25", "title": "Clearness and clear-sky indices are bounded", "statement": "clearness_index, clearness_index_zenith_independent and clearsky_index return NaN or a value in [0, max]; clearsky_index is NaN exactly when an input is not finite and is 0 when ghi_clear is 0.", "quantifier": "all inputs", "why_tests_cant": "infinitely many real inputs (and NaN/inf); tests sample a few", "anchors": ["pvlib/irradiance.py:clearness_index", "pvlib/irradiance.py:clearsky_index", "pvlib/irradiance.py:clearness_index_zenith_independent"]}
{"id": "C26", "title": "DIRINT bins cover the domain exactly once", "statement": "Every kt' in [0,1], zenith >= 0, w >= 0 (or the sentinel -1) and delta_kt' in [0,1] (or -1) falls in exactly one bin, so dirint's correction factor is a table entry (never NaN); values outside give NaN, never a wrong entry.", "quantifier": "all real values", "why_tests_cant": "continuum of values and bin edges", "anchors": ["pvlib/irradiance.py:_dirint_bins", "pvlib/irradiance.py:_dirint_coeffs"]}
{"id": "C27", "title": "complete_irradiance fills in exactly one missing component, consistently", "statement": "complete_irradiance raises ValueError unless exactly one component is None; otherwise the returned triple contains the two inputs unchanged and satisfies ghi = dhi + dni*cos(zenith) wherever dni is not NaN or limited.", "quantifier": "all inputs", "why_tests_cant": "infinitely many real inputs (and NaN/inf); tests sample a few", "anchors": ["pvlib/irradiance.py:complete_irradiance", "pvlib/irradiance.py:dni"]}
{"id": "C28", "title": "Extraterrestrial radiation stays near the solar constant", "statement": "get_extra_radiation with the spencer and asce methods returns solar_constant times a factor within [0.96,1.04] for every day of year.", "quantifier": "all days of year (any real)", "why_tests_cant": "infinitely many real inputs (and NaN/inf); tests sample a few", "anchors": ["pvlib/irradiance.py:get_extra_radiation"]}
{"id": "C29", "title": "gti_dirint returns the best iterate", "statement": "The data returned by the gti_dirint iteration at each point is that of an iteration whose |modelled - measured| is minimal among all iterations performed, and the recorded best difference never increases.", "quantifier": "all iteration counts and all sequences of model outputs", "why_tests_cant": "arbitrary histories of iterates", "anchors": ["pvlib/irradiance.py:_gti_dirint_lt_90"]}
{"id": "C30", "title": "Shaded fraction and Martinez loss are fractions", "statement": "shaded_fraction1d is NaN or in [0,1]; direct_martinez is 0 when nothing is shaded, and in [0,1] whenever 0 <= poa_direct <= poa_global, shaded_fraction in [0,1], 0 <= shaded_blocks <= total_blocks.", "quantifier": "all inputs in range", "why_tests_cant": "infinitely many real inputs (and NaN/inf); tests sample a few", "anchors": ["pvlib/shading.py:shaded_fraction1d", "pvlib/shading.py:direct_martinez"]}
{"id": "C31", "title": "Masking angle geometry", "statement": "masking_angle and ground_angle are the elevation angles of the actual line of sight: their tangent is rise over run; masking_angle is 0 at the top edge and non-increasing in slant_height; sky_diffuse_passias is in [0,1/2] and 0 at zero masking.", "quantifier": "all tilts in [0,90], gcr in (0,1), slant heights in [0,1]", "why_tests_cant": "infinitely many real inputs (and NaN/inf); tests sample a few", "anchors": ["pvlib/shading.py:masking_angle", "pvlib/shading.py:ground_angle", "pvlib/shading.py:sky_diffuse_passias"]}
{"id": "C32", "title": "Golden-section search terminates and stays in the bracket", "statement": "For every vector of finite intervals lower <= upper the search loop terminates; each returned abscissa lies in its interval (or is NaN where the function is NaN); for a function that is strictly unimodal on an interval the returned point is within atol-scaled distance of the maximiser, no matter what the other elements do.", "quantifier": "all functions, all vectors of intervals, all atol > 0", "why_tests_cant": "termination for all inputs", "anchors": ["pvlib/tools.py:_golden_sect_DataFrame"]}
{"id": "C33", "title": "Degrees-to-index lookup is total, in range and nearest", "statement": "_degrees_to_index (altitude and turbidity lookups) returns an index in [0, n-1] whose cell centre is within half a cell (plus tolerance) of the coordinate for every latitude in [-90,90]/longitude in [-180,180], and raises ValueError exactly when the coordinate is beyond the tolerance.", "quantifier": "all real coordinates", "why_tests_cant": "infinitely many real inputs (and NaN/inf); tests sample a few", "anchors": ["pvlib/tools.py:_degrees_to_index"]}
{"id": "C34", "title": "Keyword helpers pick exactly the requested parameters", "statement": "_build_kwargs returns exactly the requested keys present in the dict, with their values; _build_args returns all values in order or raises KeyError naming the first missing key.", "quantifier": "all dicts and key lists", "why_tests_cant": "arbitrary dictionaries", "anchors": ["pvlib/tools.py:_build_kwargs", "pvlib/tools.py:_build_args"]}
{"id": "C35", "title": "Dublin Julian day round trip", "statement": "djd_to_datetime inverts datetime_to_djd: converting any instant to Dublin Julian days and back gives the same instant (to datetime's microsecond resolution), irrespective of time zone.", "quantifier": "all datetimes and time zones", "why_tests_cant": "unbounded instants", "anchors": ["pvlib/tools.py:datetime_to_djd", "pvlib/tools.py:djd_to_datetime"]}
{"id": "C36", "title": "WVM wavelet decomposition is exact", "statement": "The wavelet modes returned by scaling.wvm sum to the original signal at every sample; with all variability ratios 1 the smoothed signal is the input; a constant signal is returned unchanged for any plant layout.", "quantifier": "all signals of any length, any dt, any layout", "why_tests_cant": "unbounded series", "anchors": ["pvlib/scaling.py:wvm", "pvlib/scaling.py:_compute_wavelet"]}
{"id": "C37", "title": "Huld / ADR / Batzelis models reproduce the nameplate at reference conditions", "statement": "pvarray.huld returns pdc0, pvefficiency_adr returns k_a, and batzelis returns (v_mp, i_mp, v_oc, i_sc) at 1000 W/m2 and 25 C; huld and batzelis give zero power at zero irradiance; batzelis voltages are never negative and p_mp = v_mp*i_mp.", "quantifier": "all parameter sets", "why_tests_cant": "infinitely many real inputs (and NaN/inf); tests sample a few", "anchors": ["pvlib/pvarray.py:huld", "pvlib/pvarray.py:pvefficiency_adr", "pvlib/pvarray.py:batzelis"]}
{"id": "C38", "title": "Inland-water albedo parameter contract and range", "statement": "albedo.inland_water_dvoracek raises ValueError unless exactly one of {surface_condition} or {color_coeff and wave_roughness_coeff} is given; for color_coeff in (0,1) the albedo is in (0, color_coeff], equals color_coeff for any sun below the horizon, and is the same for every negative elevation.", "quantifier": "all elevations and coefficients, all surface conditions", "why_tests_cant": "infinitely many real inputs (and NaN/inf); tests sample a few", "anchors": ["pvlib/albedo.py:inland_water_dvoracek"]}
{"id": "C39", "title": "Location time-zone setter", "statement": "Location accepts IANA strings, ints, whole floats and tzinfo objects; an integer offset h is stored as the zone whose POSIX-style name is Etc/GMT with the sign reversed; fractional floats and other types raise TypeError; setting then reading tz is idempotent.", "quantifier": "all inputs and all sequences of assignments", "why_tests_cant": "arbitrary histories", "anchors": ["pvlib/location.py:Location.tz"]}
{"id": "C40", "title": "lookup_altitude range", "statement": "lookup_altitude returns 0 for no-data cells and otherwise a multiple-of-28 offset from -450 between -450 and 6662 m for every in-range coordinate.", "quantifier": "all coordinates and all raster contents", "why_tests_cant": "infinitely many real inputs (and NaN/inf); tests sample a few", "anchors": ["pvlib/location.py:lookup_altitude"]}
{"id": "C41", "title": "Slope-aware tracker angles are geometrically exact", "statement": "tracking.calc_axis_tilt returns the tilt that puts the tracker axis in the sloped ground plane; feeding it to calc_cross_axis_tilt returns the rotation at which the tracker is exactly parallel to the ground.", "quantifier": "all slopes less steep than vertical, all slope and axis azimuths", "why_tests_cant": "infinitely many real inputs (and NaN/inf); tests sample a few", "anchors": ["pvlib/tracking.py:calc_axis_tilt", "pvlib/tracking.py:calc_cross_axis_tilt", "pvlib/tracking.py:_calc_beta_c"]}
{"id": "C42", "title": "Averaged masking angle is the average masking angle", "statement": "shading.masking_angle_passias (a closed form) equals the mean of shading.masking_angle over slant heights in [0,1]; at zero tilt, where the formula is singular, it returns the correct value 0.", "quantifier": "all tilts in [0,90), all ground coverage ratios in (0,1)", "why_tests_cant": "an integral identity over a continuum", "anchors": ["pvlib/shading.py:masking_angle_passias", "pvlib/shading.py:masking_angle"]}
{"id": "C43", "title": "Liu-Jordan irradiance closes", "statement": "irradiance.campbell_norman (and the Liu-Jordan formula behind clear-sky transmittance forecasts) returns components with ghi = dhi + dni*cos(zenith), all non-negative, dni at most the extraterrestrial irradiance and ghi at most its horizontal projection; campbell_norman is NaN when the sun is below the horizon.", "quantifier": "all zeniths, transmittances in [0,1], non-negative airmass and extra radiation", "why_tests_cant": "infinitely many real inputs (and NaN/inf); tests sample a few", "anchors": ["pvlib/irradiance.py:campbell_norman", "pvlib/irradiance.py:liujordan"]}
{"id": "C44", "title": "Diffuse PAR fraction is physical", "statement": "irradiance.diffuse_par_spitters maps every global diffuse fraction in [0,1] to a PAR diffuse fraction in [0,1].", "quantifier": "all solar zeniths, diffuse fractions in [0,1]", "why_tests_cant": "infinitely many real inputs (and NaN/inf); tests sample a few", "anchors": ["pvlib/irradiance.py:diffuse_par_spitters"]}
{"id": "C45", "title": "Relative humidity and dew point are inverse to each other", "statement": "atmosphere.tdew_from_rh undoes rh_from_tdew and vice versa, for the same Magnus coefficients; humidity is 100 % exactly when the dew point equals the air temperature and below 100 % exactly when it is lower.", "quantifier": "all air temperatures and dew points above the pole of the Magnus formula, all humidities in (0,100], all coefficient triples", "why_tests_cant": "infinitely many real inputs (and NaN/inf); tests sample a few", "anchors": ["pvlib/atmosphere.py:rh_from_tdew", "pvlib/atmosphere.py:tdew_from_rh"]}
{"id": "C46", "title": "Wind-speed power law", "statement": "atmosphere.windspeed_powerlaw demands exactly one of exponent and surface_type, is the identity at the reference height, composes through intermediate heights, grows with height for a positive exponent and never returns a negative speed.", "quantifier": "all speeds, heights, exponents, surface names and combinations of missing arguments", "why_tests_cant": "infinitely many real inputs (and NaN/inf); tests sample a few", "anchors": ["pvlib/atmosphere.py:windspeed_powerlaw"]}
{"id": "C47", "title": "Angstrom turbidity fit and extrapolation are inverse", "statement": "atmosphere.angstrom_aod_at_lambda with the exponent from angstrom_alpha reproduces both measured optical depths; the exponent does not depend on the order of the measurements; extrapolation composes through intermediate wavelengths.", "quantifier": "all positive optical depths and distinct positive wavelengths", "why_tests_cant": "infinitely many real inputs (and NaN/inf); tests sample a few", "anchors": ["pvlib/atmosphere.py:angstrom_alpha", "pvlib/atmosphere.py:angstrom_aod_at_lambda"]}
{"id": "C48", "title": "Relative airmass: accepted models, night, positivity", "statement": "atmosphere.get_relative_airmass accepts exactly the eight documented models in any letter case, returns NaN below the horizon for each of them, and a positive finite number at and above the horizon for six of them; 'simple' is sec(z); 'youngirvine1967' turns negative near the horizon.", "quantifier": "all model strings, all zeniths including NaN and infinities", "why_tests_cant": "infinitely many real inputs (and NaN/inf); tests sample a few", "anchors": ["pvlib/atmosphere.py:get_relative_airmass", "pvlib/atmosphere.py:get_absolute_airmass"]}
{"id": "C49", "title": "Location.get_airmass uses the zenith each model is defined for", "statement": "Location.get_airmass evaluates apparent-zenith models on apparent_zenith and true-zenith models on zenith, scales by the pressure at the site altitude, and raises ValueError for any other name (including gueymard2003, which get_relative_airmass accepts).", "quantifier": "all model strings, altitudes and solar positions", "why_tests_cant": "infinitely many real inputs (and NaN/inf); tests sample a few", "anchors": ["pvlib/location.py:Location.get_airmass", "pvlib/atmosphere.py:APPARENT_ZENITH_MODELS"]}
{"id": "C50", "title": "Pressure, altitude, precipitable water and Linke turbidity are monotone", "statement": "alt2pres is positive and strictly decreasing, pres2alt strictly decreasing, gueymard94_pw is at least 0.1 and non-decreasing in humidity, kasten96_lt equals its closed form and increases with aerosol and water.", "quantifier": "all altitudes below the top of the model atmosphere, all pressures, temperatures, humidities, airmasses", "why_tests_cant": "infinitely many real inputs (and NaN/inf); tests sample a few", "anchors": ["pvlib/atmosphere.py:alt2pres", "pvlib/atmosphere.py:pres2alt", "pvlib/atmosphere.py:gueymard94_pw", "pvlib/atmosphere.py:kasten96_lt"]}
{"id": "C51", "title": "Steady-state cell temperature models", "statement": "sapm_cell, pvsyst_cell and faiman return the air temperature when there is no irradiance, and otherwise air temperature plus irradiance times a positive thermal resistance that depends on the wind only and does not grow with it; NaN inputs give NaN; sapm_cell is the module temperature plus deltaT at the reference irradiance.", "quantifier": "all irradiances, temperatures, wind speeds and physically signed coefficients; all NaN positions", "why_tests_cant": "infinitely many real inputs (and NaN/inf); tests sample a few", "anchors": ["pvlib/temperature.py:sapm_cell", "pvlib/temperature.py:sapm_module", "pvlib/temperature.py:sapm_cell_from_module", "pvlib/temperature.py:pvsyst_cell", "pvlib/temperature.py:faiman"]}
{"id": "C52", "title": "faiman_rad closes its heat balance; ross takes exactly one parameter", "statement": "faiman_rad without ir_down is faiman; with it the returned temperature satisfies the radiative balance, a colder sky never warms the module. ross raises ValueError unless exactly one of noct and k is given, both forms agree, and at 800 W/m2 and 20 C the cell is at NOCT.", "quantifier": "all inputs; all combinations of missing arguments", "why_tests_cant": "infinitely many real inputs (and NaN/inf); tests sample a few", "anchors": ["pvlib/temperature.py:faiman_rad", "pvlib/temperature.py:ross"]}
{"id": "C53", "title": "noct_sam: array height contract, standoff table, NOCT conditions", "statement": "noct_sam accepts array_height 1 or 2 only; the standoff adjustment is the documented table for every real standoff; at NOCT test conditions it returns NOCT; the excess over air temperature is proportional to irradiance, and never grows with wind, efficiency or array height; effective_irradiance = poa_global changes nothing.", "quantifier": "all inputs", "why_tests_cant": "infinitely many real inputs (and NaN/inf); tests sample a few", "anchors": ["pvlib/temperature.py:noct_sam", "pvlib/temperature.py:_adj_for_mounting_standoff"]}
{"id": "C54", "title": "GenericLinearModel: every history of use_* calls behaves like the source model", "statement": "After any sequence of method calls, the object's efficiency and absorptance are the last ones given; after use_faiman / use_pvsyst / use_noct_sam, calling the object equals calling that model (use_sapm: at the two fit wind speeds) and the matching to_* returns the coefficients; to_* conversions reproduce the object from any state.", "quantifier": "all histories of method calls, all coefficients and inputs", "why_tests_cant": "Unit tests replay a few call sequences; the property ranges over all histories.", "anchors": ["pvlib/temperature.py:GenericLinearModel", "pvlib/temperature.py:generic_linear"]}
{"id": "C55", "title": "prilliman is an exponentially weighted average of the preceding 20 minutes", "statement": "temperature.prilliman returns the first sample and coarse (>= 20 min) series unchanged; every other sample is the exp(-P age)-weighted average of the valid values strictly before it in the window, NaN if there is none or the wind is NaN; it lies between the window's extremes, leaves constants unchanged, and never depends on the current or later samples. Irregular indexes raise NotImplementedError; an interval of whole days raises ZeroDivisionError.", "quantifier": "all series lengths, sampling intervals, NaN patterns, coefficients", "why_tests_cant": "infinitely many real inputs (and NaN/inf); tests sample a few", "anchors": ["pvlib/temperature.py:prilliman", "pvlib/tools.py:_get_sample_intervals"]}
{"id": "C56", "title": "fuentes: each step is bracketed by previous module, air and sky temperature", "statement": "temperature.fuentes returns numbers for physical inputs; each sample is at least the lowest of the previous module temperature, air and sky temperature, and without irradiance at most the highest of them; hence whole-series bounds.", "quantifier": "all series lengths and weather with non-negative irradiance and wind, all physical parameters", "why_tests_cant": "infinitely many real inputs (and NaN/inf); tests sample a few", "anchors": ["pvlib/temperature.py:fuentes", "pvlib/temperature.py:_fuentes_hconv", "pvlib/temperature.py:_hydraulic_diameter"]}
{"id": "C57", "title": "perez evaluates the published equation with the published clearness bins", "statement": "For positive dhi, non-negative dni and finite angles, irradiance.perez returns max(0, dhi[(1-F1)(1+cos tilt)/2 + F1 a/b + F2 sin tilt]) with F1, F2 read from the coefficient row whose clearness interval (closed below, open above; edges 0, 1.065, 1.23, 1.5, 1.95, 2.8, 4.5, 6.2) contains the sky clearness.", "quantifier": "all coefficient tables, angles, irradiances and airmasses", "why_tests_cant": "infinitely many real inputs (and NaN/inf); tests sample a few", "anchors": ["pvlib/irradiance.py:perez"]}
{"id": "C58", "title": "ashrae, martin_ruiz, schlick and sapm incidence angle modifiers", "statement": "iam.ashrae (b>=0), iam.martin_ruiz (a_r>0) and iam.schlick return, for every angle of incidence from -180 to 180 degrees, a number in [0,1] that is one at normal incidence, zero from 90 degrees on, even, and non-increasing in the size of the angle; NaN gives NaN; martin_ruiz raises ValueError exactly for a_r<=0; iam.sapm is the fifth-degree polynomial floored at zero (and capped at `upper`), zero outside [0,90].", "quantifier": "all angles and coefficients", "why_tests_cant": "infinitely many real inputs (and NaN/inf); tests sample a few", "anchors": ["pvlib/iam.py:ashrae", "pvlib/iam.py:martin_ruiz", "pvlib/iam.py:schlick", "pvlib/iam.py:sapm"]}
{"id": "C59", "title": "physical (Fresnel) incidence angle modifier", "statement": "iam.physical is an incidence angle modifier (range [0,1], one at normal incidence, zero from 90 degrees, even, non-increasing) for every refractive index 1<n<=2+sqrt 3 and non-negative K, L; with an anti-reflective coating it stays non-negative, one at normal incidence and zero behind; a coating indistinguishable from air or from the glass changes nothing.", "quantifier": "all angles, all refractive indices and glazing parameters in the stated ranges", "why_tests_cant": "infinitely many real inputs (and NaN/inf); tests sample a few", "anchors": ["pvlib/iam.py:physical"]}
{"id": "C60", "title": "martin_ruiz_diffuse factors", "statement": "iam.martin_ruiz_diffuse returns a sky and a ground factor, numbers in [0,1) for tilts in [0,180], the default c2 being 0.5*a_r-0.154, and turning the module upside down exchanges the two.", "quantifier": "all tilts, a_r, c1, c2 in the stated ranges", "why_tests_cant": "infinitely many real inputs (and NaN/inf); tests sample a few", "anchors": ["pvlib/iam.py:martin_ruiz_diffuse"]}
{"id": "C61", "title": "interp reproduces its measured points and respects the accepted methods", "statement": "iam.interp raises ValueError exactly for fewer points than the method needs, a negative reference value or an unknown method. With the linear method and references starting at angle 0 it is one at normal incidence (normalised), even in aoi, equals the normalised reference value at every reference angle, and up to the last reference angle lies between zero and the largest normalised reference value.", "quantifier": "all tables of measured points and all angles", "why_tests_cant": "infinitely many real inputs (and NaN/inf); tests sample a few", "anchors": ["pvlib/iam.py:interp"]}
{"id": "C62", "title": "Marion diffuse integration is a weighted average of the given modifier", "statement": "iam.marion_integrate accepts exactly the regions sky, horizon, ground with their default or given number of points; the result for a modifier with values in [m,M] is in [m,M] (or zero/NaN where the region is not visible); ground seen from a horizontal module is zero; sky and ground exchange under turning the module over; NaN gives NaN. marion_diffuse returns the three regions for a known model name and raises ValueError otherwise.", "quantifier": "all modifier functions, tilts, and discretisations", "why_tests_cant": "infinitely many real inputs (and NaN/inf); tests sample a few", "anchors": ["pvlib/iam.py:marion_integrate", "pvlib/iam.py:marion_diffuse"]}
{"id": "C63", "title": "schlick_diffuse factors conserve the hemisphere average", "statement": "The sky and ground factors of iam.schlick_diffuse, weighted by the sky and ground view factors, average to 20/21 - the exact hemispherical average of the Schlick factor - at every tilt, exchange when the module is turned over, and are (20/21, 0) at tilt zero.", "quantifier": "all tilts", "why_tests_cant": "infinitely many real inputs (and NaN/inf); tests sample a few", "anchors": ["pvlib/iam.py:schlick_diffuse"]}
{"id": "C64", "title": "iam.convert and iam.fit: accepted calls, bounds, misfit and recovery", "statement": "convert and fit raise NotImplementedError for unknown models, ValueError for parameter names that are not exactly those of the source model, RuntimeError when the optimiser fails; otherwise they return exactly the named parameters of the target model within the search bounds (K=4 for physical, L<n in either search order, n = sine of the ashrae zero when fix_n); the misfit ignores samples outside [0,90] degrees, is non-negative, and vanishes exactly when the curves agree at the weighted angles; exact ashrae data returns the exact b.", "quantifier": "all sources, targets, parameter mappings, samples, weights; every optimiser that respects its bounds", "why_tests_cant": "infinitely many real inputs (and NaN/inf); tests sample a few", "anchors": ["pvlib/iam.py:convert", "pvlib/iam.py:fit", "pvlib/iam.py:_residual", "pvlib/iam.py:_process_return", "pvlib/iam.py:_ashrae_to_physical", "pvlib/iam.py:_martin_ruiz_to_physical"]}
{"id": "C65", "title": "bishop88 points satisfy the single diode equation", "statement": "For every diode voltage, singlediode.bishop88 returns (current, voltage, power) that solves I = IL - I0(exp((V+I Rs)/a)-1) - (V+I Rs)/Rsh - recombination - avalanche, with V + I Rs equal to the given diode voltage and power = I*V; conversely every solution is the image of its diode voltage. Beyond the breakdown voltage the result is NaN (even with breakdown_factor=0), and NaN gives NaN.", "quantifier": "all diode voltages and all cell parameters", "why_tests_cant": "infinitely many real inputs (and NaN/inf); tests sample a few", "anchors": ["pvlib/singlediode.py:bishop88"]}
{"id": "C66", "title": "bishop88 gradients are the derivatives", "statement": "With gradients=True the returned dI/dVd, dV/dVd, dI/dV, dP/dV and d2P/dVdVd are the derivatives of the returned current, voltage and power; with a reverse breakdown term they are exactly when its chain-rule factor -1/breakdown_voltage is one (the code omits it).", "quantifier": "all parameters and diode voltages inside the domain", "why_tests_cant": "infinitely many real inputs (and NaN/inf); tests sample a few", "anchors": ["pvlib/singlediode.py:bishop88"]}
{"id": "C67", "title": "i_from_v and v_from_i return the unique solution", "statement": "For physical parameters (no avalanche) current falls and voltage rises strictly with diode voltage, so the single diode equation has at most one current per voltage and one voltage per current; whatever method is used, bishop88_i_from_v / bishop88_v_from_i return that one whenever the root finder returns a root; with brentq (a bracketing root finder) they do return it for every voltage in [0, Voc] and current in [0, Isc]. Unknown methods raise; method names are case-insensitive.", "quantifier": "all physical parameters, voltages, currents, methods, and every root finder meeting its contract", "why_tests_cant": "infinitely many real inputs (and NaN/inf); tests sample a few", "anchors": ["pvlib/singlediode.py:bishop88_i_from_v", "pvlib/singlediode.py:bishop88_v_from_i", "pvlib/singlediode.py:estimate_voc"]}
{"id": "C68", "title": "bishop88_mpp is the maximum power point", "statement": "For physical parameters (no avalanche) the point returned by bishop88_mpp lies on the curve and no point of the curve delivers more power; the bracket passed to brentq contains it.", "quantifier": "all physical parameters, all curve points, every root finder meeting its contract", "why_tests_cant": "infinitely many real inputs (and NaN/inf); tests sample a few", "anchors": ["pvlib/singlediode.py:bishop88_mpp"]}
{"id": "C69", "title": "Lambert W solutions solve the single diode equation and invert each other", "statement": "With an exact Lambert W, i_from_v and v_from_i by the lambertw method return, for every voltage / current, the unique solution of the single diode equation (series resistance zero or positive, any shunt including infinite; whether or not the intermediate exponential overflows in v_from_i); they are inverse to each other and agree with the Bishop methods. Without shunt the voltage is finite exactly when a solution exists. Negative or NaN series resistance or conductance gives NaN.", "quantifier": "all physical parameters, voltages and currents, every overflow threshold", "why_tests_cant": "infinitely many real inputs (and NaN/inf); tests sample a few", "anchors": ["pvlib/singlediode.py:_lambertw_i_from_v", "pvlib/singlediode.py:_lambertw_v_from_i"]}
{"id": "C70", "title": "accuracy of pvlib's own Lambert W", "statement": "For every finite x >= 0, pvlib's Lambert W approximation is not above the exact value w (w e^w = x) and below it by at most 2e-11 relative; for log-arguments >= 4.5 the logarithmic routine is within 1e-12; so the current from i_from_v is within 2e-11 of the diode-path term of the exact solution. NaN and arguments below -1 give NaN.", "quantifier": "all arguments", "why_tests_cant": "infinitely many real inputs (and NaN/inf); tests sample a few", "anchors": ["pvlib/ivtools/utils.py:_lambertw_pvlib", "pvlib/ivtools/utils.py:_log_lambertw"]}
{"id": "C71", "title": "the characteristic points of a single-diode curve (method lambertw)", "statement": "For positive light current the returned i_sc, v_oc, (i_mp, v_mp), i_x, i_xx all lie on the curve of the single diode equation (i_x at half v_oc, i_xx midway between v_mp and v_oc), p_mp = v_mp*i_mp is the maximum of power over the whole curve, and 0 < v_mp < v_oc, 0 < i_xx < i_mp < i_sc <= IL; the optional curve has the requested number of points from (i_sc, 0) to (0, v_oc) with strictly rising voltage and falling current. In the dark i_sc = v_oc = 0.", "quantifier": "all physical parameters, all numbers of points; every minimiser correct on unimodal functions", "why_tests_cant": "infinitely many real inputs (and NaN/inf); tests sample a few", "anchors": ["pvlib/singlediode.py:_lambertw"]}
{"id": "C72", "title": "singlediode.batzelis points", "statement": "For positive light current the Batzelis (i_mp, v_mp) lies on the diode curve without the -1 term, and is its exact maximum when there are no series and shunt losses (light current at least the saturation current); i_sc solves the equation without diode current and lies in (0, IL]; v_oc solves it without shunt and -1. For zero, negative or NaN light current every output is zero.", "quantifier": "all parameters", "why_tests_cant": "infinitely many real inputs (and NaN/inf); tests sample a few", "anchors": ["pvlib/singlediode.py:batzelis"]}
{"id": "C73", "title": "spectral mismatch from measured spectra", "statement": "calc_spectral_mismatch_field returns the ratio of usable fractions (trapezoid integral of response x spectrum over that of the spectrum) of the measured and the reference spectrum, with the response interpolated linearly and zero outside its range; it is one for the reference itself, independent of the level of spectra and response, one for a flat response, and between the extremes of the response ratio; without reference, the standard spectrum resampled to the measured wavelengths is used.", "quantifier": "all tabulated spectra and responses, of any length", "why_tests_cant": "infinitely many real inputs (and NaN/inf); tests sample a few", "anchors": ["pvlib/spectrum/mismatch.py:calc_spectral_mismatch_field", "pvlib/spectrum/irradiance.py:get_reference_spectra"]}
{"id": "C74", "title": "spectral factor models", "statement": "firstsolar, sapm, caballero, pvspec, jrc and polo spectral factors: which argument combinations are accepted and the error otherwise; First Solar's clamping and NaN rule; the SAPM factor is never negative or NaN; values at the models' reference conditions; module names case-insensitive (First Solar, PVSPEC, JRC) or case-sensitive (Caballero, Polo).", "quantifier": "all inputs and coefficients", "why_tests_cant": "infinitely many real inputs (and NaN/inf); tests sample a few", "anchors": ["pvlib/spectrum/mismatch.py:spectral_factor_firstsolar", "pvlib/spectrum/mismatch.py:spectral_factor_sapm", "pvlib/spectrum/mismatch.py:spectral_factor_caballero", "pvlib/spectrum/mismatch.py:spectral_factor_pvspec", "pvlib/spectrum/mismatch.py:spectral_factor_jrc", "pvlib/spectrum/mismatch.py:spectral_factor_polo"]}
{"id": "C75", "title": "spectral response and photon energy", "statement": "qe_to_sr and sr_to_qe are inverse to each other (unnormalised); normalisation makes the largest magnitude exactly one; the average photon energy lies between the photon energies of the longest and shortest wavelength, is independent of level, and a negative irradiance raises ValueError.", "quantifier": "all tables", "why_tests_cant": "infinitely many real inputs (and NaN/inf); tests sample a few", "anchors": ["pvlib/spectrum/response.py:qe_to_sr", "pvlib/spectrum/response.py:sr_to_qe", "pvlib/spectrum/irradiance.py:average_photon_energy", "pvlib/tools.py:normalize_max2one"]}
{"id": "C76", "title": "De Soto and CEC module parameters", "statement": "calcparams_desoto returns the reference parameters at reference irradiance and temperature; light current and shunt conductance are proportional to irradiance (shunt resistance infinite in the dark); the saturation current follows De Soto's equation and grows strictly with temperature; the five parameters always describe a physical cell; calcparams_cec only reduces the temperature coefficient by Adjust percent.", "quantifier": "all module parameters, irradiances and temperatures above absolute zero", "why_tests_cant": "infinitely many real inputs (and NaN/inf); tests sample a few", "anchors": ["pvlib/pvsystem.py:calcparams_desoto", "pvlib/pvsystem.py:calcparams_cec"]}
{"id": "C77", "title": "PVsyst module parameters", "statement": "calcparams_pvsyst returns the reference parameters at reference conditions (unless the dark shunt resistance is too large, when the shunt is overestimated); the shunt resistance equals R_sh_0 in the dark, is positive, bounded by its limits and falls with irradiance when R_sh_ref <= R_sh_0; the saturation current grows with temperature for constant ideality factor; the parameters describe a physical cell.", "quantifier": "all module parameters, irradiances and temperatures", "why_tests_cant": "infinitely many real inputs (and NaN/inf); tests sample a few", "anchors": ["pvlib/pvsystem.py:calcparams_pvsyst", "pvlib/pvsystem.py:_pvsyst_Rsh"]}
{"id": "C78", "title": "pvsystem.singlediode: all methods agree; power grows with light", "statement": "pvsystem.singlediode, i_from_v, v_from_i return the same result for every method that returns (lambertw, brentq, newton, chandrupatla); brentq always returns; unknown methods raise NotImplementedError (max_power_point also for lambertw); names are case-insensitive. For a De Soto module in the light the returned maximum power is positive, no point of the curve exceeds it, and it grows strictly with irradiance; in the dark i_sc = v_oc = 0.", "quantifier": "all physical cells, all methods, all numerical routines meeting their contracts", "why_tests_cant": "infinitely many real inputs (and NaN/inf); tests sample a few", "anchors": ["pvlib/pvsystem.py:singlediode", "pvlib/pvsystem.py:i_from_v", "pvlib/pvsystem.py:v_from_i", "pvlib/pvsystem.py:max_power_point"]}
{"id": "C79", "title": "Sandia module model", "statement": "sapm evaluates the published equations for positive irradiance, returns the module's reference values at reference conditions, never a negative voltage, NaN voltages for negative or NaN irradiance, zero currents and v_oc in the dark (v_mp and p_mp zero exactly when C2 > 0 > C3, otherwise p_mp is NaN), i_x / i_xx exactly when the module has their coefficients; v_oc rises with irradiance. sapm_effective_irradiance is F1*(F2*direct + FD*diffuse), non-negative, and zero where air mass is NaN.", "quantifier": "all coefficients and operating conditions", "why_tests_cant": "infinitely many real inputs (and NaN/inf); tests sample a few", "anchors": ["pvlib/pvsystem.py:sapm", "pvlib/pvsystem.py:sapm_effective_irradiance"]}
{"id": "C80", "title": "scale_voltage_current_power", "statement": "The result has the same columns in the same order; voltages are scaled by the series number, currents by the parallel number, power by both, so power stays voltage times current; any other column raises KeyError.", "quantifier": "all frames of any width, length and column order", "why_tests_cant": "infinitely many real inputs (and NaN/inf); tests sample a few", "anchors": ["pvlib/pvsystem.py:scale_voltage_current_power"]}
{"id": "C81", "title": "PVWatts DC and losses, ohmic losses", "statement": "pvwatts_dc is nameplate at reference, zero in the dark, linear in irradiance; with Marion's k the correction is continuous, within [0,k] below 1000 W/m2 and zero at both ends, capped above on request, and power never negative. pvwatts_losses is 100(1-prod(1-p/100)), independent of order, between the largest loss and the sum. The resistance from dc_ohms_from_percent loses exactly that percentage of power at the reference point.", "quantifier": "all inputs; any number of losses", "why_tests_cant": "infinitely many real inputs (and NaN/inf); tests sample a few", "anchors": ["pvlib/pvsystem.py:pvwatts_dc", "pvlib/pvsystem.py:pvwatts_losses", "pvlib/pvsystem.py:dc_ohms_from_percent", "pvlib/pvsystem.py:dc_ohmic_losses"]}
{"id": "C82", "title": "combine_loss_factors", "statement": "At every requested time the combined loss is 1 - prod(1 - loss in force), where the loss in force is the most recent entry (ffill), the next (bfill) or the exact one; NaN where some series has none; independent of the order of the series; between the largest loss and one.", "quantifier": "all series of any length and any requested index", "why_tests_cant": "infinitely many real inputs (and NaN/inf); tests sample a few", "anchors": ["pvlib/pvsystem.py:combine_loss_factors"]}
{"id": "C83", "title": "retrieve_sam and product names", "statement": "retrieve_sam demands exactly one of name and path, knows five database names in any case and distinguishes URLs from files regardless of case; normalised product names keep their length, contain no special character, are stable under normalisation, and a warning is issued exactly when two names coincide (before or after).", "quantifier": "all strings and lists of names", "why_tests_cant": "infinitely many real inputs (and NaN/inf); tests sample a few", "anchors": ["pvlib/pvsystem.py:retrieve_sam", "pvlib/pvsystem.py:_normalize_sam_product_names"]}
{"id": "C84", "title": "Construction of a PVSystem and its Arrays", "statement": "A PVSystem always has at least one Array (an empty sequence raises ValueError); given Arrays are kept in order and the single-array arguments are then ignored; without Arrays exactly one is built on a fixed mount with the given orientation, and only dc_ohmic_percent of the system's losses reaches it. An Array's albedo is the given one, else that of its surface type, else 0.25.", "quantifier": "all arguments, any number of arrays", "why_tests_cant": "infinitely many real inputs (and NaN/inf); tests sample a few", "anchors": ["pvlib/pvsystem.py:PVSystem.__init__", "pvlib/pvsystem.py:Array.__init__"]}
{"id": "C85", "title": "PVSystem methods work array by array", "statement": "Every per-array method of PVSystem accepts a tuple with one value per Array (or one bare value when there is one Array, or when the quantity may be system-wide), raises ValueError otherwise, and then returns, in the order of the Arrays, exactly what each Array computes from its own values; the first failing Array's exception propagates; a single result is unwrapped unless unwrap=False; results of different Arrays do not influence each other.", "quantifier": "all systems with any number of arrays, all inputs", "why_tests_cant": "infinitely many real inputs (and NaN/inf); tests sample a few", "anchors": ["pvlib/pvsystem.py:PVSystem._validate_per_array", "pvlib/pvsystem.py:_unwrap_single_value", "pvlib/pvsystem.py:PVSystem"]}
{"id": "C86", "title": "PVSystem.get_ac dispatch", "statement": "get_ac is case-insensitive in the model name and refuses unknown ones; one Array uses the single-input inverter model with bare values or singleton tuples, several use the multi-input one on all of them (PVWatts: on the total power, ignoring voltage); adr refuses several Arrays; wrong numbers of values raise ValueError; efficiencies are taken from the inverter parameters when present.", "quantifier": "all systems, model names and inputs", "why_tests_cant": "infinitely many real inputs (and NaN/inf); tests sample a few", "anchors": ["pvlib/pvsystem.py:PVSystem.get_ac"]}
{"id": "C87", "title": "Inferred temperature parameters and cell type", "statement": "Given temperature parameters are never replaced; otherwise the SAPM set of the exact racking_module name is used, else the PVsyst set of the first mounting name contained in it, else none. The cell type comes from Technology before Material; every inferred type has First Solar coefficients; coefficients stored with the module take precedence.", "quantifier": "all racking models, module types and parameter dicts", "why_tests_cant": "infinitely many real inputs (and NaN/inf); tests sample a few", "anchors": ["pvlib/pvsystem.py:Array._infer_temperature_model_params", "pvlib/pvsystem.py:Array._infer_cell_type", "pvlib/pvsystem.py:PVSystem.first_solar_spectral_loss"]}
{"id": "C88", "title": "Array cell temperature, IAM and wiring resistance dispatch", "statement": "get_cell_temperature evaluates the named model with the Array's own coefficients and documented defaults, names the first missing required coefficient in a KeyError, and refuses unknown names (case-sensitively); Ross needs exactly one of noct and k; inferred SAPM coefficients always suffice. get_iam is case-insensitive with documented defaults. dc_ohms_from_percent uses the first complete pair of names (CEC, SAPM, PVsyst), ValueError when there is none.", "quantifier": "all arrays, parameter dicts, weather series and model names", "why_tests_cant": "infinitely many real inputs (and NaN/inf); tests sample a few", "anchors": ["pvlib/pvsystem.py:Array.get_cell_temperature", "pvlib/pvsystem.py:Array.get_iam", "pvlib/pvsystem.py:Array.dc_ohms_from_percent"]}
{"id": "C89", "title": "Array.get_irradiance", "statement": "The irradiance of an Array is get_total_irradiance at the orientation of its mount (constant for a fixed mount, singleaxis for a tracker), with the Array's albedo, the extraterrestrial irradiance (1367 W/m2 when the time is unknown) and Kasten-Young air mass filled in when missing; with the default model it never raises.", "quantifier": "all arrays, sun positions and irradiances", "why_tests_cant": "infinitely many real inputs (and NaN/inf); tests sample a few", "anchors": ["pvlib/pvsystem.py:Array.get_irradiance", "pvlib/pvsystem.py:FixedMount", "pvlib/pvsystem.py:SingleAxisTrackerMount"]}
{"id": "C90", "title": "Parameter routing of losses and module models", "statement": "pvwatts_losses, calcparams_desoto/cec/pvsyst and pvwatts_dc of a system take each argument from the entry of the same name, use the documented default for an absent optional one, ignore unrelated entries, and raise TypeError / KeyError for an absent required one.", "quantifier": "all parameter dicts", "why_tests_cant": "infinitely many real inputs (and NaN/inf); tests sample a few", "anchors": ["pvlib/pvsystem.py:PVSystem.pvwatts_losses", "pvlib/pvsystem.py:PVSystem.calcparams_desoto", "pvlib/pvsystem.py:PVSystem.calcparams_cec", "pvlib/pvsystem.py:PVSystem.calcparams_pvsyst", "pvlib/pvsystem.py:PVSystem.pvwatts_dc"]}
{"id": "C91", "title": "ModelChain model choice", "statement": "Naming a DC, AC, temperature, incidence-angle or spectral model is case-insensitive; a DC name is accepted exactly when it is documented and every Array has the parameters it needs, a temperature name exactly when it is the one the parameters indicate, unknown names raise ValueError. Without a name the first model whose identifying parameters all Arrays have is chosen in the documented order. Once a DC, inferred incidence-angle or temperature model has been accepted, no later computation fails for want of a parameter.", "quantifier": "all systems, parameter dicts and names", "why_tests_cant": "infinitely many real inputs (and NaN/inf); tests sample a few", "anchors": ["pvlib/modelchain.py:ModelChain.dc_model", "pvlib/modelchain.py:ModelChain.infer_dc_model", "pvlib/modelchain.py:ModelChain.ac_model", "pvlib/modelchain.py:ModelChain.aoi_model", "pvlib/modelchain.py:ModelChain.temperature_model", "pvlib/modelchain.py:ModelChain.spectral_model"]}
{"id": "C92", "title": "ModelChain construction and presets", "statement": "Construction succeeds exactly when every one of the model choices is accepted and the chain then has exactly those models; with_pvwatts and with_sapm use their presets except where a keyword replaces one; get_orientation knows exactly the documented strategies.", "quantifier": "all systems and configurations", "why_tests_cant": "infinitely many real inputs (and NaN/inf); tests sample a few", "anchors": ["pvlib/modelchain.py:ModelChain.__init__", "pvlib/modelchain.py:ModelChain.with_pvwatts", "pvlib/modelchain.py:ModelChain.with_sapm", "pvlib/modelchain.py:get_orientation"]}
{"id": "C93", "title": "ModelChain input validation", "statement": "run_model succeeds only if the weather is one DataFrame or one per Array, all with the same index and the required columns; the from_poa and from_effective_irradiance entry points accept a bare DataFrame only for one Array; violations raise ValueError (TypeError for a bare frame with several Arrays) and a list is treated as the tuple of its elements.", "quantifier": "all chains, inputs and previous results", "why_tests_cant": "infinitely many real inputs (and NaN/inf); tests sample a few", "anchors": ["pvlib/modelchain.py:ModelChain._assign_weather", "pvlib/modelchain.py:ModelChain._check_multiple_input", "pvlib/modelchain.py:ModelChain._verify_df", "pvlib/modelchain.py:ModelChain._prepare_temperature"]}
{"id": "C94", "title": "ModelChain runs do not depend on earlier runs", "statement": "Whatever the chain computed before, a run raises the same exception or leaves the same values in every result it is responsible for (for each of the three entry points and for complete_irradiance on tuples); complete_irradiance on a bare DataFrame after a run on a 1-tuple is the exception and fails.", "quantifier": "all chains, inputs, and all histories of results", "why_tests_cant": "infinitely many real inputs (and NaN/inf); tests sample a few", "anchors": ["pvlib/modelchain.py:ModelChain.run_model", "pvlib/modelchain.py:ModelChain.run_model_from_poa", "pvlib/modelchain.py:ModelChain.run_model_from_effective_irradiance", "pvlib/modelchain.py:ModelChain.complete_irradiance"]}
{"id": "C95", "title": "What a ModelChain run computes", "statement": "After a successful run every Array's results (plane-of-array irradiance, angle of incidence, modifiers, effective irradiance, cell temperature, DC output) are related, step by step, to that Array's own parameters and its own weather by the documented physical models, with DC ohmic losses and the system loss factor applied exactly once, and the AC output is that of the system's inverter model on all DC outputs.", "quantifier": "all chains, inputs, numbers of arrays and histories", "why_tests_cant": "infinitely many real inputs (and NaN/inf); tests sample a few", "anchors": ["pvlib/modelchain.py:ModelChain.run_model", "pvlib/modelchain.py:ModelChain._run_from_effective_irrad", "pvlib/modelchain.py:ModelChain.prepare_inputs"]}
{"id": "C96", "title": "Shape of ModelChain results", "statement": "Per-array results are tuples with one entry per Array in the order of the Arrays, except that one Array with a bare DataFrame yields bare values; this holds for every per-array result of every entry point.", "quantifier": "all chains and inputs", "why_tests_cant": "infinitely many real inputs (and NaN/inf); tests sample a few", "anchors": ["pvlib/modelchain.py:ModelChainResult", "pvlib/modelchain.py:ModelChainResult.__setattr__"]}
{"id": "C97", "title": "Arrays of a ModelChain are independent", "statement": "The results of an Array (irradiance, incidence angle, modifiers, cell temperature, DC) depend only on the chain's models, the loss parameters, the first frame's sky conditions, that Array and its own weather frame - not on other Arrays, their weather, their number or order, the inverter, or earlier runs. A bare frame, a tuple and a list in which every Array gets the same frame give the same results and the same AC.", "quantifier": "all chains, systems, inputs and histories", "why_tests_cant": "infinitely many real inputs (and NaN/inf); tests sample a few", "anchors": ["pvlib/modelchain.py:ModelChain.run_model", "pvlib/pvsystem.py:PVSystem._validate_per_array"]}
{"id": "C98", "title": "Entry points of a ModelChain agree", "statement": "Feeding the plane-of-array irradiance computed by run_model back through run_model_from_poa, or the effective irradiance and global plane-of-array irradiance through run_model_from_effective_irradiance, with the same weather, gives the same later results and the same AC power.", "quantifier": "all chains, inputs and histories", "why_tests_cant": "infinitely many real inputs (and NaN/inf); tests sample a few", "anchors": ["pvlib/modelchain.py:ModelChain.run_model_from_poa", "pvlib/modelchain.py:ModelChain.run_model_from_effective_irradiance"]}
{"id": "C99", "title": "Range of ModelChain output power", "statement": "With a PVWatts inverter the AC output of every run is a finite number between 0 and eta_inv_nom*pdc0 at every time, even where the weather is NaN; with a Sandia inverter it never exceeds Paco and equals the night tare below start-up power; a PVWatts DC model with losses gives exactly the PVWatts formula times modules times the loss factor.", "quantifier": "all chains with positive ratings, all weather", "why_tests_cant": "infinitely many real inputs (and NaN/inf); tests sample a few", "anchors": ["pvlib/modelchain.py:ModelChain.pvwatts_inverter", "pvlib/modelchain.py:ModelChain.sandia_inverter", "pvlib/modelchain.py:ModelChain.pvwatts_dc"]}
{"id": "C100", "title": "A well configured ModelChain never raises on well formed input", "statement": "If the models a chain uses compute for its Arrays' parameters, then run_model, run_model_from_poa and run_model_from_effective_irradiance succeed on every well formed input, whatever was run before. In particular a chain built by with_pvwatts from numeric parameters runs on every well formed weather table (given that the sun's position can be computed).", "quantifier": "all chains, inputs and histories", "why_tests_cant": "infinitely many real inputs (and NaN/inf); tests sample a few", "anchors": ["pvlib/modelchain.py:ModelChain.run_model", "pvlib/modelchain.py:ModelChain.with_pvwatts"]}
{"id": "C101", "title": "Ineichen clear sky: closure, range, night and NaN", "statement": "ineichen equals the published expressions in daylight; its components always satisfy ghi = dhi + dni*max(cos zenith, 0), ghi and dni are non-negative, dhi is non-negative exactly under turbidity of at least ln 2 (a counterexample exists for every smaller one); all components are exactly 0 when the sun is down although the air mass is NaN, NaN in any other input gives NaN, output is proportional to dni_extra and never increases with turbidity or air mass.", "quantifier": "all zeniths, air masses, turbidities, altitudes, irradiances", "why_tests_cant": "infinitely many real inputs (and NaN/inf); tests sample a few", "anchors": ["pvlib/clearsky.py:ineichen"]}
{"id": "C102", "title": "Haurwitz clear sky", "statement": "haurwitz is 1098 cos z exp(-0.059/cos z) for the sun above the horizon and 0 otherwise, lies between 0 and its value for overhead sun, never increases with zenith, and gives 0 (not NaN) for a NaN zenith.", "quantifier": "all zeniths", "why_tests_cant": "infinitely many real inputs (and NaN/inf); tests sample a few", "anchors": ["pvlib/clearsky.py:haurwitz"]}
{"id": "C103", "title": "Simplified Solis clear sky", "statement": "simplified_solis returns finite values for every elevation (day or night), equals the published expressions with water floored at 0.2 cm, propagates NaN, is proportional to dni_extra, and within its published input range is non-negative, bounded by the modified extraterrestrial irradiance, and never decreases as the sun rises.", "quantifier": "all elevations and atmospheres", "why_tests_cant": "infinitely many real inputs (and NaN/inf); tests sample a few", "anchors": ["pvlib/clearsky.py:simplified_solis"]}
{"id": "C104", "title": "Bird clear sky", "statement": "bird's components close (ghi = direct_horizontal + dhi, direct_horizontal = dni cos z, 0 from 90 degrees on), every transmittance is in (0, 1] up to air mass 29 (and the Rayleigh one exceeds 1 beyond air mass 30), dni never exceeds 96.62 % of dni_extra, dhi is non-negative, and a NaN air mass makes everything NaN.", "quantifier": "all zeniths, air masses up to 29, atmospheres, albedos up to 0.9", "why_tests_cant": "infinitely many real inputs (and NaN/inf); tests sample a few", "anchors": ["pvlib/clearsky.py:bird"]}
{"id": "C105", "title": "Linke turbidity look-up", "statement": "lookup_linke_turbidity succeeds for every location and time, uses the nearest grid cell, interpolates linearly between the middles of consecutive months (wrapping at the year's ends, leap years included), equals the month's value at its middle, always lies within the range of the site's monthly values, and returns the month's value without interpolation; coordinates off the globe raise ValueError.", "quantifier": "all locations, times and turbidity files", "why_tests_cant": "infinitely many real inputs (and NaN/inf); tests sample a few", "anchors": ["pvlib/clearsky.py:lookup_linke_turbidity", "pvlib/clearsky.py:_interpolate_turbidity", "pvlib/clearsky.py:_calendar_month_middles"]}
{"id": "C106", "title": "Clear-sky detection: inputs and inferred limits", "statement": "detect_clearsky raises ValueError exactly when a window holds fewer than three samples, the data are shorter than a window, or (inferring limits) the interval is outside 1 to 30 minutes; inferring limits is the same as passing the inferred ones, which are the published values at 1, 5, 15, 30 minutes and non-decreasing between; zero iterations raise UnboundLocalError.", "quantifier": "all regular series and limits", "why_tests_cant": "infinitely many real inputs (and NaN/inf); tests sample a few", "anchors": ["pvlib/clearsky.py:detect_clearsky", "pvlib/clearsky.py:_clearsky_get_threshold"]}
{"id": "C107", "title": "Clear-sky detection: what is reported clear", "statement": "When detect_clearsky returns, a sample is clear exactly when it lies in a window of consecutive samples meeting all six criteria at the scale of the last pass; NaN samples are never clear; the returned scale minimises the squared differences over the clear samples; the warning is issued exactly when the scale still changed; finite data always give a result; and measurements equal to the clear-sky values keep scale 1.", "quantifier": "all data series, limits and iteration counts", "why_tests_cant": "infinitely many real inputs (and NaN/inf); tests sample a few", "anchors": ["pvlib/clearsky.py:detect_clearsky", "pvlib/clearsky.py:_clear_sample_index", "pvlib/clearsky.py:_to_centered_series"]}
{"id": "C108", "title": "Analytical zenith and azimuth are the direction of the sun", "statement": "solar_zenith_analytical and solar_azimuth_analytical give the zenith angle and clockwise-from-north azimuth of the unit vector to the sun determined by latitude, declination and hour angle: zenith is always a number in [0, pi] with the right cosine; for hour angles strictly between -pi and pi and not 0 the azimuth has the right cosine (exactly, or to 1e-8 where the code clamps) and side, and is always a number in [0, 2 pi]; at hour angle 0 it is always due south (wrong where the sun culminates to the north), and hour angles beyond pi give the mirrored azimuth.", "quantifier": "all latitudes, declinations and hour angles", "why_tests_cant": "infinitely many real inputs (and NaN/inf); tests sample a few", "anchors": ["pvlib/solarposition.py:solar_zenith_analytical", "pvlib/solarposition.py:solar_azimuth_analytical"]}
{"id": "C109", "title": "Declination and equation of time", "statement": "The declination formulas stay within 23.45 degrees (Cooper) and 24.3 degrees (Spencer), Cooper's is zero and extreme on the season days, the equation of time stays within 17.4 (Spencer) and 17.6 (PVCDROM) minutes, and all repeat every 365 days.", "quantifier": "all days", "why_tests_cant": "infinitely many real inputs (and NaN/inf); tests sample a few", "anchors": ["pvlib/solarposition.py:declination_spencer71", "pvlib/solarposition.py:declination_cooper69", "pvlib/solarposition.py:equation_of_time_spencer71", "pvlib/solarposition.py:equation_of_time_pvcdrom"]}
{"id": "C110", "title": "Hour angle of localized times", "statement": "hour_angle is the hour angle of the instant on its local calendar date, the same in every time zone up to whole turns, whenever the zone's offset at the time equals that at local midnight; it is off by 15 degrees per hour of clock change otherwise; a skipped midnight is replaced by the moment of the jump, a repeated midnight raises ValueError, naive times raise ValueError.", "quantifier": "all zones (offset functions), instants, longitudes", "why_tests_cant": "infinitely many real inputs (and NaN/inf); tests sample a few", "anchors": ["pvlib/solarposition.py:hour_angle", "pvlib/solarposition.py:_times_to_hours_after_local_midnight"]}
{"id": "C111", "title": "Geometric sunrise, sunset and transit", "statement": "sun_rise_set_transit_geometric returns, on days without a clock change, the instants of the local date at which the sun is exactly on the horizon and on the meridian, symmetric about transit and at most 12 h from it, the sun being above the horizon exactly between them; NaT exactly when the sun never crosses the horizon; 12 hours at equinox for every latitude; on clock-change days all are off by the change; a missing or repeated local midnight raises.", "quantifier": "all zones, instants, sites, declinations", "why_tests_cant": "infinitely many real inputs (and NaN/inf); tests sample a few", "anchors": ["pvlib/solarposition.py:sun_rise_set_transit_geometric", "pvlib/solarposition.py:_hour_angle_to_hours", "pvlib/solarposition.py:_local_times_from_hours_since_midnight"]}
{"id": "C112", "title": "The ephemeris algorithm", "statement": "ephemeris terminates (at most four passes for any index) and returns numbers for every time within 10 000 years of 1900: the Kepler iterate solves Kepler's equation to e*1e-4 degrees, true anomaly, declination, right ascension, azimuth in [0, 360) and elevation in [-90, 90] are exactly those of the resulting ecliptic position seen from the site, solar_time is in [0, 24] and equals 12 h plus the hour angle, refraction only raises the sun (by at most 2100 arc seconds at reference density) and vanishes below -1 and above 85 degrees. The internal day count is exact from 1901 to 2100 and wrong outside. One NaT makes every other row use the mean anomaly.", "quantifier": "all indexes of times, sites, pressures, temperatures", "why_tests_cant": "infinitely many real inputs (and NaN/inf); tests sample a few", "anchors": ["pvlib/solarposition.py:ephemeris"]}
{"id": "C113", "title": "Threaded SPA equals single-threaded SPA", "statement": "The numba solar position routine with any number of threads, any interleaving of their writes and any initial contents of the output array produces exactly the array the numpy routine produces: every cell is written exactly once, no two threads write the same cell, no write is out of bounds, and the work is cut into the requested number of chunks differing by at most one element.", "quantifier": "all time lists, thread counts, schedules, initial memories, output modes", "why_tests_cant": "infinitely many real inputs (and NaN/inf); tests sample a few", "anchors": ["pvlib/spa.py:solar_position_numba", "pvlib/spa.py:solar_position_loop", "pvlib/spa.py:solar_position_numpy"]}
{"id": "C114", "title": "Delta T by year and month", "statement": "calculate_deltat is finite for every year and month, uses the published polynomial of the interval containing the year, jumps by less than stated bounds at each interval boundary, gives 0 for a NaN year, lies in a stated range and increases between 2005 and 2050, and warns exactly outside -1999..3000.", "quantifier": "all real years and months", "why_tests_cant": "infinitely many real inputs (and NaN/inf); tests sample a few", "anchors": ["pvlib/spa.py:calculate_deltat"]}
{"id": "C115", "title": "Julian day numbering", "statement": "julian_day_dt counts days: consecutive civil dates differ by exactly 1 in the Gregorian calendar from 1583 and in the Julian calendar before the reform, the fraction is the time of day, noon of 2000-01-01 is 2451545, noon of -4712-01-01 is 0, and it agrees with the Unix time conversion for every instant from 1970; on the afternoon of 1582-10-04 it is wrong by 10 days.", "quantifier": "all valid dates and times of day", "why_tests_cant": "infinitely many real inputs (and NaN/inf); tests sample a few", "anchors": ["pvlib/spa.py:julian_day_dt", "pvlib/spa.py:julian_day"]}
{"id": "C116", "title": "Series of the earth position", "statement": "For every time within 4000 years of 2000 the computed earth-sun distance lies in (0.978, 1.0222) AU (tighter within a century), the heliocentric latitude is within stated bounds, nutation is at most a stated number of degrees, and the true obliquity stays in a stated range; the heliocentric longitude is always in [0, 360).", "quantifier": "all times within 4000 years of J2000", "why_tests_cant": "infinitely many real inputs (and NaN/inf); tests sample a few", "anchors": ["pvlib/spa.py:heliocentric_radius_vector", "pvlib/spa.py:heliocentric_longitude", "pvlib/spa.py:heliocentric_latitude", "pvlib/spa.py:longitude_obliquity_nutation", "pvlib/solarposition.py:nrel_earthsun_distance"]}
{"id": "C117", "title": "Geocentric right ascension and declination", "statement": "SPA's right ascension and declination are exactly the coordinates of the sun's ecliptic direction rotated by the true obliquity, right ascension is in [0, 360), and at every time within 4000 years of 2000 all geocentric quantities are finite with the declination within 24.3 degrees.", "quantifier": "all ecliptic positions and times within 4000 years", "why_tests_cant": "infinitely many real inputs (and NaN/inf); tests sample a few", "anchors": ["pvlib/spa.py:geocentric_sun_right_ascension", "pvlib/spa.py:geocentric_sun_declination"]}
{"id": "C118", "title": "Topocentric elevation and azimuth", "statement": "For every observer below the poles and every time, SPA's elevation (before refraction) and azimuth are those of the direction from the observer's point on the ellipsoid, raised by the elevation, to the sun at its distance: the parallax terms are the exact difference of the two position vectors, and azimuth is measured clockwise from north in [0, 360).", "quantifier": "all sites below the poles, elevations and sun positions", "why_tests_cant": "infinitely many real inputs (and NaN/inf); tests sample a few", "anchors": ["pvlib/spa.py:uterm", "pvlib/spa.py:xterm", "pvlib/spa.py:yterm", "pvlib/spa.py:parallax_sun_right_ascension", "pvlib/spa.py:topocentric_sun_declination", "pvlib/spa.py:topocentric_elevation_angle_without_atmosphere", "pvlib/spa.py:topocentric_astronomers_azimuth", "pvlib/spa.py:topocentric_azimuth_angle"]}
{"id": "C119", "title": "SPA never fails and its refraction and equation of time are sane", "statement": "Within 4000 years of 2000 and for every site below the poles SPA returns finite elevation in [-90, 90], azimuth in [0, 360) and an equation of time in (-1420, 20] minutes that equals the published one up to whole days; zenith is 90 minus elevation, apparent likewise; refraction is zero below the switch (away from its singular elevations), positive from the horizon to 89.8 degrees and at most 0.63 degrees at reference density, negative at the zenith, and NaN at -5.11 degrees.", "quantifier": "all times within 4000 years, sites, pressures, temperatures", "why_tests_cant": "infinitely many real inputs (and NaN/inf); tests sample a few", "anchors": ["pvlib/spa.py:solar_position", "pvlib/spa.py:equation_of_time", "pvlib/spa.py:atmospheric_refraction_correction"]}
{"id": "C120", "title": "SPA sunrise, sunset and transit", "statement": "transit_sunrise_sunset raises exactly when a date is not a whole UTC day; the approximate sunrise hour angle is the angle at which the sun's centre is at -0.8333 degrees and NaN exactly when it never is; the transit is within half a day of its approximate time; sunrise and sunset lie H/15 hours before and after the approximate transit plus their altitude corrections, without day wrap errors; up to 60 degrees latitude no day lacks a sunrise; the unwrap of right ascension differences recovers every daily change below 1 degree and loses 1 degree otherwise.", "quantifier": "all dates, sites below the poles", "why_tests_cant": "infinitely many real inputs (and NaN/inf); tests sample a few", "anchors": ["pvlib/spa.py:transit_sunrise_sunset", "pvlib/spa.py:sun_hour_angle_at_sunrise_sunset", "pvlib/spa.py:approx_sun_transit_time"]}
{"id": "C121", "title": "numba or numpy after any history", "statement": "Whatever environment the SPA module was imported in and whatever calls (valid, invalid or failing) were made before, a successful call with how='numba' or 'numpy' leaves SPA running numba exactly when how is 'numba' and numba is installed; it raises exactly for another how (changing nothing) or when numba's import fails with something other than ImportError; reloading clears PVLIB_USE_NUMBA, even one the user set.", "quantifier": "all environments, histories of calls and how arguments", "why_tests_cant": "infinitely many real inputs (and NaN/inf); tests sample a few", "anchors": ["pvlib/solarposition.py:_spa_python_import", "pvlib/spa.py:USE_NUMBA"]}
{"id": "C122", "title": "get_solarposition: methods, defaults and frames", "statement": "get_solarposition accepts exactly five method names in any capitalisation and raises ValueError otherwise; missing altitude or pressure is filled from the other by the standard atmosphere; the result depends on the instants only, not on the zone; nrel_numba and nrel_numpy agree from any history and thread count; every method returns one row per time with zenith = 90 - elevation; nrel_numpy always succeeds with elevations in [-90, 90] and azimuths in [0, 360) within 4000 years; nrel_c passes temperature as elevation, and atmos_refract=0 means the default.", "quantifier": "all methods, times, sites, histories, thread schedules", "why_tests_cant": "infinitely many real inputs (and NaN/inf); tests sample a few", "anchors": ["pvlib/solarposition.py:get_solarposition", "pvlib/solarposition.py:spa_python", "pvlib/solarposition.py:spa_c", "pvlib/solarposition.py:pyephem", "pvlib/solarposition.py:_datetime_to_unixtime"]}
{"id": "C123", "title": "sun_rise_set_transit_spa answers for the local date", "statement": "For localized times in any zone sun_rise_set_transit_spa never raises (given a valid how) and answers every timestamp with the SPA day of its local calendar date, the same for all times of that date, also around clock changes; naive times raise ValueError; up to 60 degrees latitude transit, sunrise and sunset exist for every date.", "quantifier": "all zones (offset functions), instants, sites", "why_tests_cant": "infinitely many real inputs (and NaN/inf); tests sample a few", "anchors": ["pvlib/solarposition.py:sun_rise_set_transit_spa"]}
{"id": "C124", "title": "Earth-sun distance and PyEphem times", "statement": "nrel_earthsun_distance returns one number in (0.978, 1.0222) per time for any how, thread count and history; PyEphem dates are converted to the nearest microsecond, before and after 1970; sun_rise_set_transit_ephem raises exactly for naive times or a word other than next/previous in any capitalisation, and returns PyEphem's next or previous events accordingly.", "quantifier": "all times, dates, histories", "why_tests_cant": "infinitely many real inputs (and NaN/inf); tests sample a few", "anchors": ["pvlib/solarposition.py:nrel_earthsun_distance", "pvlib/solarposition.py:_ephem_convert_to_seconds_and_microseconds", "pvlib/solarposition.py:sun_rise_set_transit_ephem"]}
{"id": "C125", "title": "Sunlit fraction of the ground between rows", "statement": "The fraction of the ground between rows that the infinite-sheds geometry reports as sunlit lies in [0, 1] and is exactly the measure of the ground segment not covered by the shadows of the rows, divided by its length, whenever enough rows are summed; for the whole pitch it is max(0, 1 - gcr |cos(tilt) + sin(tilt) tan(phi)|); the default 10 rows suffice up to gcr 0.6 and 85 degrees and give a wrong 0.9 in a case with gcr 1; a NaN angle is reported as full shade.", "quantifier": "all tilts, projected zeniths, ground cover ratios, heights, pitches, ground segments, numbers of rows", "why_tests_cant": "infinitely many real inputs (and NaN/inf); tests sample a few", "anchors": ["pvlib/bifacial/utils.py:_unshaded_ground_fraction"]}
{"id": "C126", "title": "View factors of a point on a row", "statement": "The sky and ground view factors of a point of a row are those of Lambert's law over the angles between the row's own plane and the edges of the row in front; each is in [0, 1], together at most 1, sky grows and ground falls up the slant, and the sky view factor is that of a surface tilted by the tilt plus the masking angle.", "quantifier": "all tilts, ground cover ratios and positions with a defined direction to the neighbour", "why_tests_cant": "infinitely many real inputs (and NaN/inf); tests sample a few", "anchors": ["pvlib/bifacial/utils.py:vf_row_sky_2d", "pvlib/bifacial/utils.py:vf_row_ground_2d", "pvlib/bifacial/utils.py:_vf_poly"]}
{"id": "C127", "title": "Row-to-sky view factor of a segment", "statement": "For a segment of a row the view factor to the sky is the mean (integral) over its points, lies in [0, 1], adds up over adjoining segments weighted by length and mirrors when the rotation changes sign; exchanging the bounds gives the complement.", "quantifier": "all nonnegative tilts, segments longer than 1e-6", "why_tests_cant": "infinitely many real inputs (and NaN/inf); tests sample a few", "anchors": ["pvlib/bifacial/utils.py:vf_row_sky_2d_integ"]}
{"id": "C128", "title": "Ground-to-sky view factor of a point", "statement": "For rows entirely above the ground the ground-to-sky view factor is half the measure of the cosines of directions that meet none of the rows considered, so it lies in [0, 1].", "quantifier": "all tilts, heights, pitches, ground points, numbers of rows", "why_tests_cant": "infinitely many real inputs (and NaN/inf); tests sample a few", "anchors": ["pvlib/bifacial/utils.py:vf_ground_sky_2d"]}
{"id": "C129", "title": "Crossed strings", "statement": "The crossed-string view factors are finite and nonnegative; an unobstructed pair of strings is the Lambert integral (Hottel's rule); row-to-ground view factors add up over adjoining parts of ground and, weighted by length, of the row, and telescope over the whole ground; for the whole row and ground they depend neither on height nor on pitch.", "quantifier": "all geometries, segments, numbers of rows", "why_tests_cant": "infinitely many real inputs (and NaN/inf); tests sample a few", "anchors": ["pvlib/bifacial/utils.py:vf_ground_sky_2d_integ", "pvlib/bifacial/utils.py:vf_row_ground_2d_integ", "pvlib/bifacial/utils.py:_crossed_string"]}
{"id": "C130", "title": "Bifacial results do not depend on the unit of length", "statement": "Measuring height and pitch in another unit changes no view factor, no shaded fraction, no number of rows considered and no irradiance of infinite_sheds.", "quantifier": "all positive scale factors and geometries", "why_tests_cant": "infinitely many real inputs (and NaN/inf); tests sample a few", "anchors": ["pvlib/bifacial/utils.py", "pvlib/bifacial/infinite_sheds.py:get_irradiance_poa"]}
{"id": "C131", "title": "infinite_sheds conserves direct light", "statement": "The shaded fraction of a row is in [0, 1]; the back of a row has the opposite normal; and per pitch of ground the direct light received by the front, by the back and by the sunlit ground adds up exactly to the direct light on the horizontal, with at most one side of the row lit.", "quantifier": "all tilts, azimuths, suns above the horizon within 85 degrees across the rows, ground cover ratios, beam irradiance", "why_tests_cant": "infinitely many real inputs (and NaN/inf); tests sample a few", "anchors": ["pvlib/bifacial/infinite_sheds.py:_shaded_fraction", "pvlib/bifacial/infinite_sheds.py:get_irradiance_poa", "pvlib/bifacial/infinite_sheds.py:_backside"]}
{"id": "C132", "title": "infinite_sheds components", "statement": "For valid input all components of one side are finite and nonnegative, global = direct + sky + ground-reflected, diffuse = sky + ground, sky diffuse never exceeds dhi and no light gives no irradiance; moving circumsolar light to the beam keeps the light on the horizontal.", "quantifier": "all valid geometries and irradiances", "why_tests_cant": "infinitely many real inputs (and NaN/inf); tests sample a few", "anchors": ["pvlib/bifacial/infinite_sheds.py:get_irradiance_poa", "pvlib/bifacial/infinite_sheds.py:_poa_sky_diffuse_pv", "pvlib/bifacial/infinite_sheds.py:_poa_ground_pv"]}
{"id": "C133", "title": "infinite_sheds model choice and both sides", "statement": "get_irradiance_poa raises exactly for the Hay-Davies model without dni_extra and treats every other model name as isotropic; get_irradiance returns exactly both sides computed separately and poa_global = front + back * bifaciality * (1 + shade) * (1 + transmission), with any failure of either side raised.", "quantifier": "all inputs and model names", "why_tests_cant": "infinitely many real inputs (and NaN/inf); tests sample a few", "anchors": ["pvlib/bifacial/infinite_sheds.py:get_irradiance", "pvlib/bifacial/infinite_sheds.py:get_irradiance_poa"]}
{"id": "C134", "title": "ants2d row segments", "statement": "Cutting a row into n segments loses nothing: the segments are equal and adjoining, the shaded fractions lie in [0, 1] with the shaded fraction of the row as their mean for either sense of rotation, shade starts at the lower edge, and the mean direct irradiance of the segments is that of the row; all components are finite and nonnegative with global = direct + diffuse and diffuse = sky + ground.", "quantifier": "all rotations, suns, ground cover ratios, numbers of segments, ground light", "why_tests_cant": "infinitely many real inputs (and NaN/inf); tests sample a few", "anchors": ["pvlib/bifacial/ants2d.py:_shaded_fraction", "pvlib/bifacial/ants2d.py:get_irradiance"]}
{"id": "C135", "title": "ants2d sky models, slopes and results", "statement": "ants2d raises exactly for an unknown sky model or a missing dni_extra or airmass the model needs; angles are wrapped to [-180, 180) by whole turns; the back has the opposite normal, so at most one side gets direct light; on flat ground the slope correction changes only the global irradiance, to the sum of components; the result has one entry per row segment and ground segment.", "quantifier": "all inputs, models, rotations and slopes", "why_tests_cant": "infinitely many real inputs (and NaN/inf); tests sample a few", "anchors": ["pvlib/bifacial/ants2d.py:get_irradiance", "pvlib/bifacial/ants2d.py:_apply_sky_diffuse_model", "pvlib/bifacial/ants2d.py:_apply_ground_slope"]}
{"id": "C136", "title": "Bifacial mismatch loss", "statement": "The mismatch loss is the polynomial with the given coefficients scaled by the fill factor ratio; with the default coefficients it is 0 exactly for uniform irradiance and strictly grows with the spread; a fill factor of 0 behaves as if none was given.", "quantifier": "all relative mean absolute differences, coefficient lists, fill factors", "why_tests_cant": "infinitely many real inputs (and NaN/inf); tests sample a few", "anchors": ["pvlib/bifacial/loss_models.py:power_mismatch_deline"]}
{"id": "C137", "title": "Reverse transposition", "statement": "ghi_from_poa_driesse_2024 rejects a tolerance that is not positive and otherwise always returns: NaN for a NaN reading, 0 for a reading not above 0, NaN (not converged, -1 iterations) when even clearness index 1.25 is modelled to give less than the reading, and otherwise a GHI between 0 and that bound such that, when it is reported as converged, the modelled plane-of-array irradiance crosses the reading within the tolerance; the default tolerance always converges; on a horizontal plane it returns the reading itself, within the tolerance.", "quantifier": "all orientations, sun positions up to the horizon, readings, extraterrestrial irradiances, albedos, positive tolerances, optional airmass", "why_tests_cant": "infinitely many real inputs (and NaN/inf); tests sample a few", "anchors": ["pvlib/irradiance.py:ghi_from_poa_driesse_2024", "pvlib/irradiance.py:_ghi_from_poa", "pvlib/irradiance.py:_poa_from_ghi"]}
{"id": "C138", "title": "DIRINDEX", "statement": "dirindex is never negative; it is the clear-sky DNI times the ratio of the two DIRINT estimates; it returns the clear-sky DNI when the measured GHI is the clear-sky GHI; and it is NaN when the sun is below max_zenith.", "quantifier": "all series of any length, thresholds, pressures, dew points", "why_tests_cant": "infinitely many real inputs (and NaN/inf); tests sample a few", "anchors": ["pvlib/irradiance.py:dirindex"]}
{"id": "C139", "title": "GTI-DIRINT", "statement": "gti_dirint rejects data without an AOI below 90 degrees and unknown models. For AOI < 90 the components are non-negative or NaN and close (up to clipping DHI at 0); transposed back they reproduce the reading within 1 W/m2 at all such times, or are the best of all max_iterations guesses. For AOI >= 90 they are NaN (at night, at azimuth exactly 180, or when not requested) or close exactly and reproduce the reading exactly with an isotropic sky, with the clearness index averaged over the same day's morning or afternoon rows with 65 < AOI < 80.", "quantifier": "all series of any length, orientations, models, numbers of iterations", "why_tests_cant": "infinitely many real inputs (and NaN/inf); tests sample a few", "anchors": ["pvlib/irradiance.py:gti_dirint", "pvlib/irradiance.py:_gti_dirint_lt_90", "pvlib/irradiance.py:_gti_dirint_gte_90", "pvlib/irradiance.py:_gti_dirint_gte_90_kt_prime"]}
{"id": "C140", "title": "Numerical derivatives of a curve", "statement": "numdiff returns NaN at the two points at each end; its first derivative is exact for every polynomial of degree at most 4 on any (also unequal) spacing; its second derivative is the classical 5-point formula only for equally spaced points of spacing 1, and a constant function can be given a nonzero second derivative.", "quantifier": "all sample points, all polynomials of degree at most 4", "why_tests_cant": "infinitely many real inputs (and NaN/inf); tests sample a few", "anchors": ["pvlib/ivtools/utils.py:_numdiff"]}
{"id": "C141", "title": "Rectified IV curves", "statement": "rectify_iv_curve returns exactly the finite points with nonnegative voltage and current, rounded, one per voltage (duplicate voltages averaged), in strictly increasing voltage; the order of the input does not matter and rectifying twice changes nothing more.", "quantifier": "all lists of points, NaN included, all decimals", "why_tests_cant": "infinitely many real inputs (and NaN/inf); tests sample a few", "anchors": ["pvlib/ivtools/utils.py:rectify_iv_curve"]}
{"id": "C142", "title": "Schumaker quadratic spline", "statement": "The spline keeps every data point with its value, its knots strictly increase, a piece's slopes lie between those of monotone data, straight lines are reproduced; an interval with an inserted knot is interpolated at its right end only under an exact condition that generally fails.", "quantifier": "all data with increasing abscissae, any number of points", "why_tests_cant": "infinitely many real inputs (and NaN/inf); tests sample a few", "anchors": ["pvlib/ivtools/utils.py:_schumaker_qspline"]}
{"id": "C143", "title": "ASTM E1036 parameters", "statement": "Voc and Isc are the measured ones when the curve comes close enough to the axes and else the least-squares line's intercept through the nearest points; the maximum power is the largest stationary value of the least-squares polynomial within the window around the largest measured power; pmp = vmp * imp, ff = pmp / (voc * isc); exact curves give exact parameters.", "quantifier": "all curves, limits, numbers of points and fit orders", "why_tests_cant": "infinitely many real inputs (and NaN/inf); tests sample a few", "anchors": ["pvlib/ivtools/utils.py:astm_e1036"]}
{"id": "C144", "title": "Simple Sandia fit of the single diode equation", "statement": "Whenever fit_sandia_simple returns, the parameters are those whose curve has the least-squares line of the first downward-sloping prefix (at least the points below vlim * v_oc) as straight part and the least-squares exponential of the points more than ilim * i_sc below it, with a positive saturation current that puts the maximum power and open circuit points on the curve (their mean); it raises TypeError, RuntimeError or ZeroDivisionError exactly when no line, no downward line or no exponential part exists; a curve made of the two parts of a cell gives that cell's five parameters exactly.", "quantifier": "all curves, optional points, limits", "why_tests_cant": "infinitely many real inputs (and NaN/inf); tests sample a few", "anchors": ["pvlib/ivtools/sde.py:fit_sandia_simple", "pvlib/ivtools/sde.py:_sandia_beta0_beta1", "pvlib/ivtools/sde.py:_sandia_beta3_beta4", "pvlib/ivtools/sde.py:_sandia_simple_params"]}
{"id": "C145", "title": "Co-content fit of the single diode equation", "statement": "The co-content array is the integral of Isc - I of the spline at every data point; the co-content of a single diode curve is exactly the quadratic the method fits; the principal-components regression recovers any such quadratic exactly from points on no common conic, and series resistance, shunt resistance and ideality factor follow exactly; the returned saturation current is too small by an exact term and the returned light current misses the short circuit point unless io = 0, isc = 0 or rs = 1.", "quantifier": "all splines with at least 6 knots, all single diode curves, all data on no common conic", "why_tests_cant": "infinitely many real inputs (and NaN/inf); tests sample a few", "anchors": ["pvlib/ivtools/sde.py:_fit_sandia_cocontent", "pvlib/ivtools/sde.py:_cocontent", "pvlib/ivtools/sde.py:_cocontent_regress"]}
{"id": "C146", "title": "Steps of the Sandia IV-curve fit", "statement": "Each refinement step of the Sandia single diode fit does what it is for: the light current puts (0, isc) on the curve, the series resistance puts the maximum power point on it, the shunt resistance is a fixed point exactly when the maximum power condition holds there, and the saturation current passes are the stated number of fixed-point steps whose stopping leaves every voc within tolerance; a NaN in one curve stops the passes for all; for arguments that overflow the Lambert-W step is not Newton's and the series resistance misses the maximum power point; the filter keeps exactly the curves with finite positive in-range values.", "quantifier": "all curves, parameter values, index sets and pass counts", "why_tests_cant": "infinitely many real inputs (and NaN/inf); tests sample a few", "anchors": ["pvlib/ivtools/sdm/_fit_desoto_pvsyst_sandia.py:_update_io", "pvlib/ivtools/sdm/_fit_desoto_pvsyst_sandia.py:_update_rsh_fixed_pt", "pvlib/ivtools/sdm/_fit_desoto_pvsyst_sandia.py:_calc_theta_phi_exact", "pvlib/ivtools/sdm/_fit_desoto_pvsyst_sandia.py:_filter_params"]}
{"id": "C147", "title": "Iteration of the Sandia IV-curve fit", "statement": "The refinement loop performs between one and maxiter passes, each a refinement of the curves that passed the filter; a curve that is dropped never comes back and keeps its values; it ends early exactly when the relative changes are below tolerance; after it every kept curve meets its short circuit point and the physical filter; initial values are those of the documented formulas, and curves not yet initialised take part with placeholder values; the public fits return these values.", "quantifier": "all measured curve sets, iteration limits and tolerances", "why_tests_cant": "infinitely many real inputs (and NaN/inf); tests sample a few", "anchors": ["pvlib/ivtools/sdm/_fit_desoto_pvsyst_sandia.py:_update_iv_params", "pvlib/ivtools/sdm/_fit_desoto_pvsyst_sandia.py:_initial_iv_params", "pvlib/ivtools/sdm/_fit_desoto_pvsyst_sandia.py:_check_converge", "pvlib/ivtools/sdm/desoto.py:fit_desoto_sandia", "pvlib/ivtools/sdm/pvsyst.py:fit_pvsyst_sandia"]}
{"id": "C148", "title": "Module parameters extracted from fitted IV curves", "statement": "Given single diode parameters per curve, fit_desoto_sandia and fit_pvsyst_sandia recover the light current, saturation current, resistances and diode factors of a module whose curves follow the model exactly; fit_desoto_sandia's EgRef, however, is the true band gap times a constant between 1.17 and 1.18, and it raises IndexError if all kept curves above 400 W/m2 share one irradiance; parameters at which the PVsyst shunt fit's residuals vanish are the true ones.", "quantifier": "all sets of curves following the model at two or more conditions", "why_tests_cant": "infinitely many real inputs (and NaN/inf); tests sample a few", "anchors": ["pvlib/ivtools/sdm/desoto.py:fit_desoto_sandia", "pvlib/ivtools/sdm/desoto.py:_fit_desoto_sandia_diode", "pvlib/ivtools/sdm/_fit_desoto_pvsyst_sandia.py:_extract_sdm_params", "pvlib/ivtools/sdm/pvsyst.py:_fit_pvsyst_sandia_gamma"]}
{"id": "C149", "title": "fit_desoto solves the datasheet equations", "statement": "The vector returned by fit_desoto is the solver's, and a vector solves the system exactly if the curve it describes passes through the datasheet's short circuit, open circuit and maximum power points, has stationary power there, and has the open circuit voltage shifted by beta_voc 2 K above the reference; RuntimeError exactly if the solver fails; ValueError exactly for unknown keys in init_guess, which otherwise override the documented starting values.", "quantifier": "all datasheets, initial guesses and solvers", "why_tests_cant": "infinitely many real inputs (and NaN/inf); tests sample a few", "anchors": ["pvlib/ivtools/sdm/desoto.py:fit_desoto", "pvlib/ivtools/sdm/desoto.py:_system_of_equations_desoto"]}
{"id": "C150", "title": "fit_desoto_batzelis closed form", "statement": "fit_desoto_batzelis returns parameters obeying the method's relations with a Lambert-W value within 2e-11 of the exact one; the resulting curve misses the three datasheet points by exactly stated neglected terms; and scaling the module (parallel and series multiples) scales the parameters accordingly.", "quantifier": "all datasheet values with 0 < delta <= 1", "why_tests_cant": "infinitely many real inputs (and NaN/inf); tests sample a few", "anchors": ["pvlib/ivtools/sdm/desoto.py:fit_desoto_batzelis"]}
{"id": "C151", "title": "fit_pvsyst_iec61853_sandia_2025 steps", "statement": "Each of the seven estimation steps recovers its parameters exactly from measurements that satisfy that step's equation (temperature coefficients, shunt resistances, series resistance, diode factor, saturation current, light current, final diode factor); the call raises ValueError exactly if alpha_sc is missing and not exactly one point is at standard conditions, or beta_mp is missing and no point is near 1000 W/m2, or no point reaches the minimum irradiance; given values pass through unchanged.", "quantifier": "all measurement matrices", "why_tests_cant": "infinitely many real inputs (and NaN/inf); tests sample a few", "anchors": ["pvlib/ivtools/sdm/pvsyst.py:fit_pvsyst_iec61853_sandia_2025"]}
{"id": "C152", "title": "pvsyst_temperature_coeff", "statement": "Whatever the root finder, the value returned is the centred difference of the true maximum powers (over the whole single diode curve) a cube root of machine epsilon around the reference temperature, divided by the true, positive, maximum power there; the centred difference is within M h^2 / 6 of the derivative of any function with third derivative at most M; it raises only what the maximum power point search raises.", "quantifier": "all sensible PVsyst modules, all sound root finders, all thrice differentiable functions", "why_tests_cant": "infinitely many real inputs (and NaN/inf); tests sample a few", "anchors": ["pvlib/ivtools/sdm/pvsyst.py:pvsyst_temperature_coeff", "pvlib/tools.py:_first_order_centered_difference", "pvlib/singlediode.py:bishop88_mpp"]}
{"id": "C153", "title": "fit_cec_sam", "statement": "fit_cec_sam passes the module's values to PySAM under SAM's names, returns SAM's Il, Io, Rs, Rsh, a, Adj in that order, raises RuntimeError exactly when SAM reports anything but success and KeyError exactly when SAM's answer lacks a name (the first missing one).", "quantifier": "all module values and all SAM answers", "why_tests_cant": "infinitely many real inputs (and NaN/inf); tests sample a few", "anchors": ["pvlib/ivtools/sdm/cec.py:fit_cec_sam"]}
{"id": "C154", "title": "spectrl2: a physical spectrum at every wavelength", "statement": "For every physical input (sun not below the horizon, nonnegative amounts, albedos in [0,1], asymmetry factor in [0,0.95]) spectrl2 returns, at each of the 122 wavelengths in increasing order, finite values: 0 < dni <= dni_extra, dhi >= 0, poa_direct = dni max(cos aoi,0), Hay-Davies sky diffuse and isotropic ground reflection, both nonnegative, poa_global their sum, and dni cos(zenith) + dhi <= dni_extra cos(zenith)/(1-albedo/2). More air mass, pressure, water vapour, ozone or turbidity never increases dni. Without a Series index and dayofyear it raises ValueError; a Series index overrides dayofyear.", "quantifier": "all physical inputs, all days, all wavelengths of the table", "why_tests_cant": "infinitely many real inputs (and NaN/inf); tests sample a few", "anchors": ["pvlib/spectrum/spectrl2.py:spectrl2", "pvlib/spectrum/spectrl2.py:_spectrl2_transmittances"]}
{"id": "C155", "title": "read_panond: the nesting of PVsyst files is recovered exactly", "statement": "Parsing any well formed .pan/.ond content (arbitrarily nested objects, fields with or without values, any keys) yields exactly the nested dictionaries of its structure, with the values converted by int/float/list rules and repeated keys replaced, independent of how deep or long the file is. The last line of a file is never read; text after a second '=' is dropped; a blank line between an object and its items raises IndexError or files the item elsewhere.", "quantifier": "all well formed contents of any depth and length", "why_tests_cant": "infinitely many real inputs (and NaN/inf); tests sample a few", "anchors": ["pvlib/iotools/panond.py:_parse_panond", "pvlib/iotools/panond.py:_num_type", "pvlib/iotools/panond.py:_element_type", "pvlib/iotools/panond.py:read_panond"]}
{"id": "C156", "title": "read_tmy3: the time index", "statement": "Every row with an existing date and a time from 00:00 to 24:00 gets the moment it names (24:00 is 00:00 of the next day, also over month and year ends), moments on 29 February being moved to 1 March; with coerce_year no valid file raises, and a typical year of 8760 rows whose months come from any years gets row i (from 0) i+1 hours after the start of the coerced year (29 February skipped in leap years), strictly increasing, the last row being in the following year. Non-existing dates raise ValueError. If the file counts hours from 0, the last row is moved a year ahead.", "quantifier": "all files with valid rows; all typical years, all years of the months and all coerce_year", "why_tests_cant": "infinitely many real inputs (and NaN/inf); tests sample a few", "anchors": ["pvlib/iotools/tmy.py:read_tmy3"]}
{"id": "C157", "title": "TMY2 and EPW: time index, fields, time zone", "statement": "TMY2: all rows are placed in the year of the first row at the beginning of their hour; a typical year has row i exactly i hours after the start of that year; a date that does not exist in the first row's year raises ValueError; the 70 fields of a line are contiguous and non-overlapping. EPW: the same with each row's own year or coerce_year (29 February skipped in leap years; a 29 February coerced to a common year raises ValueError). The header's time zone shifts the index by a whole number of seconds, exactly if it is one.", "quantifier": "all rows and files, all line texts long enough, all years, all time zones", "why_tests_cant": "infinitely many real inputs (and NaN/inf); tests sample a few", "anchors": ["pvlib/iotools/tmy.py:_read_tmy2", "pvlib/iotools/tmy.py:_parsemeta_tmy2", "pvlib/iotools/epw.py:_parse_epw"]}
{"id": "C158", "title": "read_srml: the time index", "statement": "For every SRML file of intervals of 1 to 29 minutes or one hour that starts with the first two intervals of a day, the index holds the beginnings of the intervals (times HHMM up to 2400 mean their end), for any number of days. Half-hourly files raise ValueError (the interval is computed as 70), files with fewer than two rows KeyError.", "quantifier": "all interval lengths, all rows and days of all years", "why_tests_cant": "infinitely many real inputs (and NaN/inf); tests sample a few", "anchors": ["pvlib/iotools/srml.py:_format_index"]}
{"id": "C159", "title": "Station networks: the time index", "statement": "SURFRAD and raw MIDC (year, day of year, hour, minute), SOLRAD and MIDC (year, month, day, hour, minute), CRN (integers YYYYMMDD and HHMM without leading zeros) and BSRN (day and minute of the month) all give exactly the moment their columns name; the same moment by month and day or by day of the year gives the same index; fields out of range raise ValueError.", "quantifier": "all dates and times", "why_tests_cant": "infinitely many real inputs (and NaN/inf); tests sample a few", "anchors": ["pvlib/iotools/surfrad.py:_format_index", "pvlib/iotools/solrad.py:read_solrad", "pvlib/iotools/crn.py:read_crn", "pvlib/iotools/midc.py:_format_index_raw", "pvlib/iotools/midc.py:_format_index", "pvlib/iotools/bsrn.py:_parse_bsrn"]}
{"id": "C160", "title": "read_srml: columns, flags and bad values", "statement": "For every file of any number of (variable, flag) column pairs, read_srml returns each variable under its pvlib name (element number mapped, instrument number kept; spectral and unknown elements unchanged) followed by its own flags under that name with '_flag'; values flagged 99 and only those are NaN; mapping never produces duplicate names.", "quantifier": "all numbers of columns and rows, all element numbers, all values", "why_tests_cant": "infinitely many real inputs (and NaN/inf); tests sample a few", "anchors": ["pvlib/iotools/srml.py:read_srml", "pvlib/iotools/srml.py:_map_columns"]}
{"id": "C161", "title": "Missing values and layouts of SURFRAD, CRN and SOLRAD files", "statement": "SURFRAD values equal to -9999.9 and no others become NaN; each CRN column's own sentinel and no other value becomes NaN; headers and widths of the fixed-width formats match and names are distinct.", "quantifier": "all values of all columns", "why_tests_cant": "infinitely many real inputs (and NaN/inf); tests sample a few", "anchors": ["pvlib/iotools/surfrad.py:read_surfrad", "pvlib/iotools/crn.py:read_crn", "pvlib/iotools/solrad.py:read_solrad"]}
{"id": "C162", "title": "Downloads of several files: which files, which order, what is missing", "statement": "get_surfrad and get_solrad request exactly one file for each day from the day of start to the day of end, get_srml and get_bsrn one for each month, in order and with distinct names (two-digit years: over less than 100 years); files the server does not have are skipped and reported, all other data are concatenated in order, metadata come from the last available file, any other exception propagates; without any file SURFRAD, SOLRAD and SRML raise ValueError and BSRN returns an empty table with empty metadata. get_surfrad ignores its argument map_variables.", "quantifier": "all date ranges, all answers of the server", "why_tests_cant": "infinitely many real inputs (and NaN/inf); tests sample a few", "anchors": ["pvlib/iotools/surfrad.py:get_surfrad", "pvlib/iotools/solrad.py:get_solrad", "pvlib/iotools/srml.py:get_srml", "pvlib/iotools/bsrn.py:get_bsrn"]}
{"id": "C163", "title": "read_bsrn: logical records", "statement": "For every file made of logical records, in any order and number, the lines handed to the fixed-width reader for a record are exactly the lines of that record; every two lines of LR0100 and LR0500 become one row in the documented columns; a file without records raises NameError; coordinates are converted from the south pole / antimeridian.", "quantifier": "all files, all orders and lengths of records", "why_tests_cant": "infinitely many real inputs (and NaN/inf); tests sample a few", "anchors": ["pvlib/iotools/bsrn.py:_parse_bsrn", "pvlib/iotools/bsrn.py:_empty_dataframe_from_logical_records"]}
{"id": "C164", "title": "Waiting for asynchronous results: era5 and SolarAnywhere", "statement": "get_era5 polls once a second and returns at the first final answer if it comes within the timeout, otherwise raises Timeout after floor(timeout)+1 requests; get_solaranywhere does so on the wall clock, with at most floor(timeout/5)+2 requests if the clock advances at least five seconds per pass; data arriving with the request after the limit are accepted; with a frozen clock SolarAnywhere never ends.", "quantifier": "all schedules of server answers, all clocks, all timeouts", "why_tests_cant": "infinitely many real inputs (and NaN/inf); tests sample a few", "anchors": ["pvlib/iotools/era5.py:get_era5", "pvlib/iotools/solaranywhere.py:get_solaranywhere"]}
{"id": "C165", "title": "read_cams: metadata, time index and units", "statement": "The metadata section of every CAMS file is read completely (for each key the last value, the column names, and the table left untouched) if it ends with the line of column names, and reading never terminates if there is no such line; the index is the beginning or end of each observation period, for monthly data the first or last day of the month; unless integrated, exactly the irradiation columns are divided by the length of the period in hours.", "quantifier": "all files, labels, time steps, dates and values", "why_tests_cant": "infinitely many real inputs (and NaN/inf); tests sample a few", "anchors": ["pvlib/iotools/sodapro.py:read_cams"]}
{"id": "C166", "title": "PVGIS files: sections are recovered exactly", "statement": "For every PVGIS hourly CSV file made of metadata lines, a header, data lines, a blank line and notes, the parser recovers exactly the entries, names, rows and descriptions (text after a second colon is lost); files without header raise ValueError (or IndexError at a non-blank line without colon); the PVGIS TMY CSV parser finds months, header, the 8760 data lines and notes with and without a time offset line.", "quantifier": "all files", "why_tests_cant": "infinitely many real inputs (and NaN/inf); tests sample a few", "anchors": ["pvlib/iotools/pvgis.py:_parse_pvgis_hourly_csv", "pvlib/iotools/pvgis.py:_parse_pvgis_tmy_csv"]}
{"id": "C167", "title": "PVGIS typical years: rolling to local time, coercing the year, horizon", "statement": "Rolling by tz hours gives row i the values of row i-tz modulo the number of rows, loses nothing and is undone by rolling back; the new index has the month, day and time of the old rows in the coerced year; in a common year every value keeps its moment (up to exactly one year at the turn of the year), in a leap year values around 28 February do not; offsets without zone raise, as does a leap day coerced to a common year. Horizon azimuths are counted from north in [0, 360) with only the duplicate north point removed.", "quantifier": "all tables, offsets, years", "why_tests_cant": "infinitely many real inputs (and NaN/inf); tests sample a few", "anchors": ["pvlib/iotools/pvgis.py:_coerce_and_roll_tmy", "pvlib/iotools/pvgis.py:get_pvgis_tmy", "pvlib/iotools/pvgis.py:get_pvgis_horizon"]}
{"id": "C168", "title": "Weather services: column names, units, missing values", "statement": "For every table Solcast, Solargis, NASA POWER, ERA5 or MERRA-2 sends, each known column is renamed to pvlib's name and each number converted exactly once to pvlib's unit (pressure, precipitable water, temperature, irradiance, precipitation, azimuth), all other columns are unchanged, and the services' codes for missing values become NaN before conversion. Not so for Solargis' clear-sky tilted irradiance (-9 stays), ERA5 long names (unit not converted) and MERRA-2's precipitable water (kg/m2). Names requested from NASA POWER and Meteonorm by pvlib's names come back under the same names.", "quantifier": "all tables: any columns, any number of rows, any values", "why_tests_cant": "infinitely many real inputs (and NaN/inf); tests sample a few", "anchors": ["pvlib/iotools/solcast.py:_solcast2pvlib", "pvlib/iotools/solargis.py:get_solargis", "pvlib/iotools/nasa_power.py:get_nasa_power", "pvlib/iotools/era5.py:get_era5", "pvlib/iotools/merra2.py:get_merra2", "pvlib/iotools/meteonorm.py:_get_meteonorm", "pvlib/iotools/meteonorm.py:_parse_meteonorm", "pvlib/iotools/psm4.py:get_nsrdb_psm4_aggregated"]}
{"id": "C169", "title": "Weather services: which time range is requested, how periods are labelled", "statement": "get_merra2 and get_solaranywhere request exactly the moments given, get_era5 the days in UTC on which they are; Meteonorm ignores the offset of times with a zone (the moment is right only for UTC), NASA POWER requests the local date as UTC date; get_solaranywhere with only one end raises AttributeError; Solcast and Meteonorm label each period by its middle; read_nsrdb_psm4 gives each row the moment of its local time in the zone of the metadata.", "quantifier": "all times and offsets, all rows", "why_tests_cant": "infinitely many real inputs (and NaN/inf); tests sample a few", "anchors": ["pvlib/iotools/meteonorm.py:_get_meteonorm", "pvlib/iotools/merra2.py:get_merra2", "pvlib/iotools/era5.py:get_era5", "pvlib/iotools/nasa_power.py:get_nasa_power", "pvlib/iotools/solaranywhere.py:get_solaranywhere", "pvlib/iotools/solcast.py:_solcast2pvlib", "pvlib/iotools/psm4.py:read_nsrdb_psm4"]}
{"id": "C170", "title": "ACIS values, SolarAnywhere and MERRA-2 metadata, Solargis time resolutions", "statement": "ACIS station cells: 'M' is NaN, 'T' the given trace value, everything else the number; grids: -999 is NaN; altitude is converted from feet with the data but not in the list of stations. The key-value pairs of SolarAnywhere and MERRA-2 headers are recovered exactly (last value per key); a second colon in a SolarAnywhere piece raises ValueError. Solargis: unknown integer resolutions raise AttributeError, 'PT30M' is not translated.", "quantifier": "all cells, all headers", "why_tests_cant": "infinitely many real inputs (and NaN/inf); tests sample a few", "anchors": ["pvlib/iotools/acis.py:get_acis_station_data", "pvlib/iotools/acis.py:_get_acis", "pvlib/iotools/acis.py:get_acis_available_stations", "pvlib/iotools/acis.py:get_acis_prism", "pvlib/iotools/solaranywhere.py:read_solaranywhere", "pvlib/iotools/merra2.py:get_merra2", "pvlib/iotools/solargis.py:get_solargis"]}
{"id": "C171", "title": "get_extra_radiation: every kind of time argument agrees", "statement": "On dates get_extra_radiation depends on the instant alone: Timestamps, datetimes, dates and DatetimeIndexes in any zone agree; an index gives a Series with each value that of its timestamp alone; the day-of-year methods use the UTC day on which the instant falls; the number of a day in epoch_year and midnight of that day as a date give the same; arrays are computed element by element, and exactly unknown methods and (for pyephem and nrel) non-finite days raise.", "quantifier": "all instants, zones, indexes, arrays, methods", "why_tests_cant": "infinitely many real inputs (and NaN/inf); tests sample a few", "anchors": ["pvlib/irradiance.py:get_extra_radiation", "pvlib/irradiance.py:_handle_extra_radiation_types", "pvlib/tools.py:_pandas_to_doy", "pvlib/tools.py:_pandas_to_utc", "pvlib/tools.py:_scalar_out", "pvlib/tools.py:_array_out", "pvlib/solarposition.py:pyephem_earthsun_distance"]}
{"id": "C172", "title": "Days of year as dates", "statement": "Converting days of year to a DatetimeIndex gives midnight of that day, element by element, to the nearest microsecond, raises ValueError exactly for NaN and infinities, counts on past the end of the year, and taking days of year again gives the same numbers back for all days of the year, leap or not.", "quantifier": "all years, all lists of days of year", "why_tests_cant": "infinitely many real inputs (and NaN/inf); tests sample a few", "anchors": ["pvlib/tools.py:_doy_to_datetimeindex", "pvlib/tools.py:_pandas_to_doy"]}
{"id": "C173", "title": "localize_to_utc keeps or finds instants", "statement": "localize_to_utc keeps the instants of localized values, whatever zone; a naive datetime becomes the (first) instant at which clocks at the location show it, one in a gap is silently read with the offset in force before; a naive pandas index becomes the unique instants and raises exactly when some reading is shown never or more than once.", "quantifier": "all zones (arbitrary offset functions), all instants and readings", "why_tests_cant": "infinitely many real inputs (and NaN/inf); tests sample a few", "anchors": ["pvlib/tools.py:localize_to_utc"]}
{"id": "C174", "title": "calc_time finds the crossing", "statement": "If the attribute of the sun is on different sides of the value at the two bounds, calc_time returns a UTC time at most the tolerance away from a moment between the bounds at which the attribute crosses the value; it raises ValueError if it is strictly on the same side at both and AttributeError for an unknown attribute; naive bounds are read as UTC and only the instants of the bounds matter.", "quantifier": "all bounds, all continuous attributes, all zones, any brentq meeting scipy's documentation", "why_tests_cant": "infinitely many real inputs (and NaN/inf); tests sample a few", "anchors": ["pvlib/solarposition.py:calc_time"]}
{"id": "C175", "title": "Location: construction, from_tmy, from_epw", "statement": "A Location keeps what it is given, looks altitude up only if it is missing, and refuses unacceptable zones whatever else; from_tmy and from_epw give the coordinates, name, altitude and zone of the file for whole-hour zones, refuse fractional ones, and raise for any keyword argument.", "quantifier": "all coordinates, zones, metadata dictionaries, keywords", "why_tests_cant": "infinitely many real inputs (and NaN/inf); tests sample a few", "anchors": ["pvlib/location.py:Location.__init__", "pvlib/location.py:Location.from_tmy", "pvlib/location.py:Location.from_epw"]}
{"id": "C176", "title": "Location: solar positions and events are those of its coordinates", "statement": "Location.get_solarposition equals solarposition.get_solarposition at the coordinates and altitude of the location, with the given or the standard pressure; get_sun_rise_set_transit refuses naive times and unknown methods and otherwise returns what the named method gives at the coordinates.", "quantifier": "all locations, times, methods, temperatures, pressures", "why_tests_cant": "infinitely many real inputs (and NaN/inf); tests sample a few", "anchors": ["pvlib/location.py:Location.get_solarposition", "pvlib/location.py:Location.get_sun_rise_set_transit"]}
{"id": "C177", "title": "Location.get_clearsky: which inputs matter, physical results", "statement": "A given solar position is used as it is, otherwise it is computed with the pressure keyword; each model takes exactly its keywords (haurwitz ignores all, pressure is ignored by ineichen), others raise; unknown models raise ValueError; with the default model, for every location on Earth and every solar position the result is finite, non-negative, dhi <= ghi and zero at night.", "quantifier": "all locations, times, positions, keyword dictionaries", "why_tests_cant": "infinitely many real inputs (and NaN/inf); tests sample a few", "anchors": ["pvlib/location.py:Location.get_clearsky"]}
{"id": "C178", "title": "fit_sandia recovers the inverter it was given", "statement": "Noise-free measurements of an inverter that follows the Sandia model, at three voltage levels with three or more DC powers each and AC power rising with DC power up to the rating, give back all parameters; TypeError exactly if a level has no measurement; Paco, Pnt and the mean nominal voltage are passed on. Not so: with zero start power C2 is NaN (and then so is every AC power), and with AC power falling before the rating Pdco is too small.", "quantifier": "all parameters and measurements of the kind, any polyfit that is exact on exact data", "why_tests_cant": "infinitely many real inputs (and NaN/inf); tests sample a few", "anchors": ["pvlib/inverter.py:fit_sandia", "pvlib/inverter.py:sandia"]}
{"id": "C179", "title": "latlon_to_xy: distances between sites", "statement": "Each site is mapped to the meridian arc (north) and the arc of the parallel of the mean latitude (east); one pair is a list of one; distances between sites do not depend on the order of sites or a common shift in longitude; longitudes are not wrapped at the antimeridian; one NaN latitude makes all eastings NaN; no sites raise ValueError.", "quantifier": "all lists of sites", "why_tests_cant": "infinitely many real inputs (and NaN/inf); tests sample a few", "anchors": ["pvlib/scaling.py:latlon_to_xy"]}
{"id": "C180", "title": "fit_pvefficiency_adr: bounds, options, weights", "statement": "Unless the caller sets bounds, the fitted ADR parameters lie in their documented physical ranges and carry the names under which pvefficiency_adr takes them; each option given by the caller replaces that option only; ValueError without data or positive efficiency; the start is feasible exactly for a non-negative largest efficiency; measurements are weighted by the root of irradiance and those in the dark do not count.", "quantifier": "all data, all options, any curve_fit meeting scipy's documentation", "why_tests_cant": "infinitely many real inputs (and NaN/inf); tests sample a few", "anchors": ["pvlib/pvarray.py:fit_pvefficiency_adr"]}
{"id": "C181", "title": "Solcast requests", "statement": "Each Solcast function sends one request to its documented address with the key in the Authorization header, the location, format=json, the range of a historic request, and the caller's further keyword arguments unchanged; the outcome depends only on the reply; repeating a parameter raises TypeError without a request. Not so: the key of a historic request is also in the query.", "quantifier": "all coordinates, keys, keyword dictionaries, services", "why_tests_cant": "infinitely many real inputs (and NaN/inf); tests sample a few", "anchors": ["pvlib/iotools/solcast.py:get_solcast_tmy", "pvlib/iotools/solcast.py:get_solcast_historic", "pvlib/iotools/solcast.py:get_solcast_forecast", "pvlib/iotools/solcast.py:get_solcast_live", "pvlib/iotools/solcast.py:_get_solcast"]}
{"id": "C182", "title": "Meteonorm requests", "statement": "Each Meteonorm function sends one request to its address with the key in the Authorization header, carrying exactly the location, range, translated parameters, surface, horizon, time step and settings given; an error status raises HTTPError, any other reply is parsed. Not so: the albedo given to get_meteonorm_tmy has no effect.", "quantifier": "all arguments, all services", "why_tests_cant": "infinitely many real inputs (and NaN/inf); tests sample a few", "anchors": ["pvlib/iotools/meteonorm.py:get_meteonorm_forecast_basic", "pvlib/iotools/meteonorm.py:get_meteonorm_forecast_precision", "pvlib/iotools/meteonorm.py:get_meteonorm_observation_realtime", "pvlib/iotools/meteonorm.py:get_meteonorm_observation_training", "pvlib/iotools/meteonorm.py:get_meteonorm_tmy", "pvlib/iotools/meteonorm.py:_get_meteonorm"]}
{"id": "C183", "title": "NSRDB requests ask for the right place", "statement": "Each of the six PSM4 functions asks its own data set for POINT(longitude latitude), in that order, each coordinate in decimal notation within 0.00005 degrees of the one given, with the caller's identity, year, time step, translated variables and switches.", "quantifier": "all finite coordinates, all arguments", "why_tests_cant": "infinitely many real inputs (and NaN/inf); tests sample a few", "anchors": ["pvlib/iotools/psm4.py:get_nsrdb_psm4_aggregated", "pvlib/iotools/psm4.py:get_nsrdb_psm4_tmy", "pvlib/iotools/psm4.py:get_nsrdb_psm4_conus", "pvlib/iotools/psm4.py:get_nsrdb_psm4_full_disc", "pvlib/iotools/psm4.py:get_nsrdb_psm4_polar", "pvlib/iotools/psm4.py:get_nsrdb_psm4_polar_tmy"]}
{"id": "C184", "title": "CAMS requests", "statement": "get_cams refuses unknown time steps and services with ValueError before any request; otherwise sends one request naming the coordinates, the altitude (or -999), the days, the time reference, the translated step and the escaped mail address, verbose only for one-minute data in universal time; a good reply is read, an error reply raises HTTPError, or IndexError if it has no exception report.", "quantifier": "all arguments, all services", "why_tests_cant": "infinitely many real inputs (and NaN/inf); tests sample a few", "anchors": ["pvlib/iotools/sodapro.py:get_cams"]}
{"id": "C185", "title": "PVGIS files: format, metadata, time stamps", "statement": "An explicit format is used as it is, otherwise the lower-case file extension decides; unknown formats raise ValueError and open files without a format TypeError; renaming columns keeps values and order; the metadata of a JSON file keep everything and put the inputs in the place of their descriptions; every existing moment written as YYYYmmdd:HHMM is read as that moment and all others are refused.", "quantifier": "all file names, formats, dictionaries, times", "why_tests_cant": "infinitely many real inputs (and NaN/inf); tests sample a few", "anchors": ["pvlib/iotools/pvgis.py:read_pvgis_hourly", "pvlib/iotools/pvgis.py:read_pvgis_tmy", "pvlib/iotools/pvgis.py:_parse_pvgis_hourly_json", "pvlib/iotools/pvgis.py:_parse_pvgis_tmy_json"]}
{"id": "C186", "title": "Renamed arguments and deprecated functions still work", "statement": "A call with the old name of a renamed argument is the call with the new name and one warning; without the old name the call is unchanged and silent; both names raise ValueError. A deprecated function returns what the function it stands for returns, with one warning; a pending deprecation with a scheduled removal is refused, every other message is made and names the alternative.", "quantifier": "all functions, arguments, keyword dictionaries, messages", "why_tests_cant": "infinitely many real inputs (and NaN/inf); tests sample a few", "anchors": ["pvlib/_deprecation.py:renamed_kwarg_warning", "pvlib/_deprecation.py:deprecated", "pvlib/_deprecation.py:_generate_deprecation_message"]}
{"id": "C187", "title": "Runs of a ModelChain leave the caller's data and earlier results alone", "statement": "No call of run_model, run_model_from_poa, run_model_from_effective_irradiance or complete_irradiance changes an object that existed before it (weather data, module tables, earlier results); result objects are new and pairwise different; they keep their contents through any later history of runs and of changes by the caller to his own data; the weather of the results is the caller's with the documented defaults; losses, applied in place, are in each array's DC result exactly once.", "quantifier": "all stores of objects, all inputs, any numbers of arrays, all histories of calls and changes, whatever is computed", "why_tests_cant": "infinitely many real inputs (and NaN/inf); tests sample a few", "anchors": ["pvlib/modelchain.py:ModelChain.run_model", "pvlib/modelchain.py:ModelChain.run_model_from_poa", "pvlib/modelchain.py:ModelChain.run_model_from_effective_irradiance", "pvlib/modelchain.py:ModelChain.complete_irradiance", "pvlib/modelchain.py:ModelChain.pvwatts_losses", "pvlib/modelchain.py:_copy"]}
{"id": "C188", "title": "Tables, presets and dictionaries given by the caller are not changed", "statement": "ModelChain.with_pvwatts and with_sapm use the unchanged module-level defaults under the caller's arguments after any history of constructions; golden-section search, solver options, sky components and MERRA-2 request parameters are copied before they are changed; turbidity interpolation over any sequence of years leaves Python's calendar as it is and gives each year its own month lengths.", "quantifier": "all stores, dictionaries, histories", "why_tests_cant": "infinitely many real inputs (and NaN/inf); tests sample a few", "anchors": ["pvlib/modelchain.py:ModelChain.with_pvwatts", "pvlib/modelchain.py:ModelChain.with_sapm", "pvlib/tools.py:_golden_sect_DataFrame", "pvlib/singlediode.py:bishop88_i_from_v", "pvlib/irradiance.py:poa_components", "pvlib/iotools/merra2.py:get_merra2", "pvlib/clearsky.py:_calendar_month_middles"]}
{"id": "C189", "title": "Which parameter dictionaries arrays share", "statement": "Module and loss parameters that are not given are new for each Array, so changing them in one array changes no other; given ones are kept by reference; a system's array has its own loss dictionary. Not so: temperature parameters inferred from the mounting are the entry of the module-level table itself, so changing them in one array changes every other array with that mounting, also those constructed later.", "quantifier": "all stores, tables, arguments, later changes", "why_tests_cant": "infinitely many real inputs (and NaN/inf); tests sample a few", "anchors": ["pvlib/pvsystem.py:Array.__init__", "pvlib/pvsystem.py:PVSystem.__init__", "pvlib/pvsystem.py:Array._infer_temperature_model_params", "pvlib/temperature.py:_temperature_model_params"]}
{"id": "C190", "title": "Only the bearing between surface and sun matters", "statement": "aoi_projection and get_total_irradiance give the same results, column for column, when the same angle is added to both azimuths, when whole turns are added to either, and when the scene is mirrored; the projection determines the bearing up to these moves.", "quantifier": "all azimuths, all models, all values of the other arguments", "why_tests_cant": "infinitely many real inputs (and NaN/inf); tests sample a few", "anchors": ["pvlib/irradiance.py:aoi_projection", "pvlib/irradiance.py:get_total_irradiance", "pvlib/irradiance.py:get_sky_diffuse"]}
{"id": "C191", "title": "Transposition does not depend on the unit of irradiance", "statement": "Multiplying dni, ghi, dhi and dni_extra by one positive factor multiplies every column of get_sky_diffuse and get_total_irradiance by that factor and changes no exception, for every sky model.", "quantifier": "all positive factors, all inputs including NaN and infinities, all models", "why_tests_cant": "infinitely many real inputs (and NaN/inf); tests sample a few", "anchors": ["pvlib/irradiance.py:get_total_irradiance", "pvlib/irradiance.py:get_sky_diffuse"]}
{"id": "C192", "title": "Perez is discontinuous, Perez-Driesse is continuous", "statement": "perez_driesse varies continuously with continuously varying inputs. perez does not: with its default coefficients an arbitrarily small rise of dni lowers the diffuse irradiance by more than 3 W/m2, and the isotropic component can be negative. The names of coefficient sets are exactly the keys of the shipped table; the documented name '1990' raises KeyError.", "quantifier": "all continuous inputs; all dni in the two intervals", "why_tests_cant": "infinitely many real inputs (and NaN/inf); tests sample a few", "anchors": ["pvlib/irradiance.py:perez", "pvlib/irradiance.py:perez_driesse", "pvlib/irradiance.py:_get_perez_coefficients", "pvlib/irradiance.py:_f"]}
{"id": "C193", "title": "Scaling the result of one module is solving the array", "statement": "For identical modules in strings, the array's five parameters (currents times strings, thermal voltage times modules, resistances times modules/strings) give curves with voltages times modules and currents times strings: i_from_v, v_from_i and batzelis scale so, and singlediode of the array equals scale_voltage_current_power of singlediode of one module.", "quantifier": "all sane parameters, all positive numbers of modules and strings, all voltages and currents", "why_tests_cant": "infinitely many real inputs (and NaN/inf); tests sample a few", "anchors": ["pvlib/pvsystem.py:singlediode", "pvlib/pvsystem.py:i_from_v", "pvlib/pvsystem.py:v_from_i", "pvlib/pvsystem.py:scale_voltage_current_power", "pvlib/singlediode.py:batzelis"]}
{"id": "C194", "title": "A module with no worse parameter yields no less", "statement": "If no parameter is worse (more photocurrent, less saturation current, less series resistance, higher shunt resistance, larger n Ns Vth), the current at each voltage up to open circuit, and short-circuit current, open-circuit voltage and maximum power of singlediode are at least as large.", "quantifier": "all pairs of sane parameter sets so ordered", "why_tests_cant": "infinitely many real inputs (and NaN/inf); tests sample a few", "anchors": ["pvlib/pvsystem.py:singlediode"]}
{"id": "C195", "title": "Erbs-Driesse: continuous, with continuous slope, within 0.0005 of Erbs", "statement": "As documented, the diffuse fraction of erbs_driesse differs from that of erbs by less than 0.0005 at every clearness index, and is continuous with continuous slope (up to 2e-14, the rounding of its coefficients); that of erbs is not within 1e-4 of any continuous function.", "quantifier": "all clearness indices", "why_tests_cant": "infinitely many real inputs (and NaN/inf); tests sample a few", "anchors": ["pvlib/irradiance.py:erbs_driesse", "pvlib/irradiance.py:erbs"]}
{"id": "C196", "title": "More global irradiance never means less direct irradiance", "statement": "For the same sun position and day, dni from erbs and boland does not fall when ghi rises, and that from erbs_driesse not by more than 1e-14 of ghi/cos(zenith). Not so for orgill_hollands: just below a clearness index of 0.35 dni is larger than at it.", "quantifier": "all ghi, all zeniths up to max_zenith in front of the horizon, all thresholds and days", "why_tests_cant": "infinitely many real inputs (and NaN/inf); tests sample a few", "anchors": ["pvlib/irradiance.py:erbs", "pvlib/irradiance.py:erbs_driesse", "pvlib/irradiance.py:boland", "pvlib/irradiance.py:orgill_hollands"]}
{"id": "C197", "title": "Symmetries of the single-axis tracker", "statement": "singleaxis gives the same rotation, incidence and surface tilt when one angle is added to the azimuths of axis and sun (the surface azimuth turns with them); describing the tracker by the other end of its axis gives the same surface and incidence and the opposite rotation; mirroring the sun on the vertical plane of the axis mirrors the surface. With and without backtracking, with any limits.", "quantifier": "all suns above the horizon, all axes, ground coverages, slopes and limits", "why_tests_cant": "infinitely many real inputs (and NaN/inf); tests sample a few", "anchors": ["pvlib/tracking.py:singleaxis", "pvlib/tracking.py:calc_surface_orientation", "pvlib/shading.py:projected_solar_zenith_angle"]}
{"id": "C198", "title": "Long series can be processed in pieces", "statement": "coverage_nrel started in the middle of a series with the coverage reached there as initial_coverage gives the same values as on the whole series (constant step, or a frequency that cannot be inferred). So does kimber with initial_soiling, if neither the accumulation nor the grace period reaches back over the cut to a rain; and hsu, which has no such argument, right after a cleaning.", "quantifier": "all series, all cut points, all parameters", "why_tests_cant": "infinitely many real inputs (and NaN/inf); tests sample a few", "anchors": ["pvlib/snow.py:coverage_nrel", "pvlib/soiling.py:kimber", "pvlib/soiling.py:hsu"]}
{"id": "C199", "title": "The two hemispheres are mirror images", "statement": "At the opposite latitude and declination solar_zenith_analytical is the same, solar_azimuth_analytical is mirrored on the east-west line, and sun_rise_set_transit_geometric gives the same times. On the same day the day lengths at opposite latitudes add up to 24 hours.", "quantifier": "all latitudes, declinations and hour angles (azimuth: sun off the meridian and the zenith, place off the poles); days with sunrise and sunset", "why_tests_cant": "infinitely many real inputs (and NaN/inf); tests sample a few", "anchors": ["pvlib/solarposition.py:solar_zenith_analytical", "pvlib/solarposition.py:solar_azimuth_analytical", "pvlib/solarposition.py:sun_rise_set_transit_geometric"]}
{"id": "C200", "title": "Bearings and turned modules in infinite_sheds", "statement": "infinite_sheds.get_irradiance_poa depends on the azimuths of surface and sun through the bearing between them only. Turning a bifacial module over (tilt 180 - tilt, opposite azimuth, incidence modifiers exchanged) exchanges front and back in every column of get_irradiance.", "quantifier": "all azimuths and tilts, all sky models, all values of the other arguments", "why_tests_cant": "infinitely many real inputs (and NaN/inf); tests sample a few", "anchors": ["pvlib/bifacial/infinite_sheds.py:get_irradiance_poa", "pvlib/bifacial/infinite_sheds.py:get_irradiance", "pvlib/bifacial/infinite_sheds.py:_backside"]}
{"id": "C201", "title": "How strings are grouped into arrays does not matter", "statement": "Splitting an Array of a ModelChain's system into several with fewer strings each, merging alike Arrays or reordering them changes neither plane-of-array and effective irradiance and cell temperature of any Array nor the AC power: with a PVWatts inverter at every time, missing and infinite values included, with a Sandia inverter wherever the total DC power is a number and either not 0 or below a positive start-up power.", "quantifier": "all DC models, loss and ohmic loss models, numbers of arrays and strings, weather and earlier results; run_model", "why_tests_cant": "infinitely many real inputs (and NaN/inf); tests sample a few", "anchors": ["pvlib/modelchain.py:ModelChain.run_model", "pvlib/pvsystem.py:PVSystem.get_ac", "pvlib/inverter.py:sandia_multi", "pvlib/inverter.py:pvwatts_multi", "pvlib/pvsystem.py:scale_voltage_current_power"]}
{"id": "C202", "title": "No light, no power", "statement": "Where dni, ghi and dhi of every Array are zero or missing, get_total_irradiance gives zero or missing values for every model, DC power of a PVWatts ModelChain is zero or missing and its AC power is exactly 0, never NaN. The same holds for run_model_from_poa and run_model_from_effective_irradiance without light on the planes of the arrays.", "quantifier": "all transposition, IAM, spectral, temperature and loss models, all mounts, all positions of the sun, all parameters of modules and losses (inverter rating and efficiencies positive)", "why_tests_cant": "infinitely many real inputs (and NaN/inf); tests sample a few", "anchors": ["pvlib/irradiance.py:get_total_irradiance", "pvlib/pvsystem.py:pvwatts_dc", "pvlib/inverter.py:pvwatts", "pvlib/modelchain.py:ModelChain.run_model"]}
{"id": "C203", "title": "The rows of a ModelChain run are independent", "statement": "Every result of an Array and the AC power at a time depend only on that row of the weather frames: whatever the other rows hold, however many there are and wherever the row stands. So a long series can be cut, filtered, reordered or run row by row, with each of the three entry points. (Not with the fuentes temperature model, which has a memory, unless the cell temperature is given.)", "quantifier": "all chains, systems and numbers of arrays, all weather, all pairs of runs with a row in common, all earlier results; sites whose solar position at a time depends on that time's data only", "why_tests_cant": "infinitely many real inputs (and NaN/inf); tests sample a few", "anchors": ["pvlib/modelchain.py:ModelChain.run_model", "pvlib/modelchain.py:ModelChain.run_model_from_poa", "pvlib/modelchain.py:ModelChain.run_model_from_effective_irradiance"]}
{"id": "C204", "title": "A tracker that does not turn is a fixed mount", "statement": "The irradiance on a plane and its angle of incidence depend on the plane's normal only, not on the description (tilt, azimuth) of it. A single-axis tracker whose limits lock it at a rotation reports that rotation and the orientation calc_surface_orientation gives. While the sun is above the horizon, Array.get_irradiance and Array.get_aoi on a tracker locked at 0 are those of the same Array on a FixedMount with the axis's tilt and azimuth, for every transposition model.", "quantifier": "all planes, positions of the sun, irradiance, models; all trackers with equal limits, with or without backtracking, all axes (tilt 0 to 180)", "why_tests_cant": "infinitely many real inputs (and NaN/inf); tests sample a few", "anchors": ["pvlib/tracking.py:singleaxis", "pvlib/pvsystem.py:SingleAxisTrackerMount", "pvlib/irradiance.py:get_total_irradiance", "pvlib/pvsystem.py:Array.get_irradiance"]}
{"id": "C205", "title": "Overcast skies and bright ground", "statement": "With no direct light and ghi = dhi, the klucher, haydavies and reindl models give the isotropic sky diffuse; if the ground then reflects everything (albedo 1), every plane receives exactly dhi, at every tilt. For every model a change of albedo changes the irradiance by ghi times the change times the part of the ground in view, through the ground-diffuse component only, so that a brighter ground never lowers it. With haydavies, on a plane that faces away from the sun, more direct light at equal ghi and dhi strictly lowers the irradiance.", "quantifier": "all planes and positions of the sun, all irradiance values, all models (a: the four named)", "why_tests_cant": "infinitely many real inputs (and NaN/inf); tests sample a few", "anchors": ["pvlib/irradiance.py:get_sky_diffuse", "pvlib/irradiance.py:get_total_irradiance", "pvlib/irradiance.py:get_ground_diffuse", "pvlib/irradiance.py:klucher", "pvlib/irradiance.py:haydavies", "pvlib/irradiance.py:reindl"]}
{"id": "C206", "title": "The example spectral response is the spline through its table", "statement": "get_example_spectral_response interpolates its 13-point table with the one and only not-a-knot cubic spline through it (existence and uniqueness among all twice continuously differentiable piecewise cubics); at the table's wavelengths it returns the table's values, outside 290-1190 nm exactly 0, NaN for NaN. Strictly inside it is positive; it never exceeds 1.002, but between 950 and 1000 nm it does exceed 1 (at 959 nm, say), and nowhere else. One value per wavelength, in order; by default every 5 nm from 280 to 1200.", "quantifier": "all wavelengths (finite, infinite, NaN), all lists of wavelengths, all candidate splines", "why_tests_cant": "infinitely many real inputs (and NaN/inf); tests sample a few", "anchors": ["pvlib/spectrum/response.py:get_example_spectral_response"]}
{"id": "C207", "title": "Tables of the SAM libraries", "statement": "retrieve_sam's table has one row per column of the file (spaces become underscores) and one column per product, in file order and under the normalised name; the two lines of units and SAM names have no effect; every cell outside the row ADRCoefficients is the file's. A coefficient field with any brackets and spaces around and between numbers becomes the list of those numbers; one word that is not a number (such as '1.33,' in the function's own comment) makes the whole library raise ValueError.", "quantifier": "all headers, products and cells, all spacings, every float parser", "why_tests_cant": "infinitely many real inputs (and NaN/inf); tests sample a few", "anchors": ["pvlib/pvsystem.py:_parse_raw_sam_df", "pvlib/pvsystem.py:retrieve_sam"]}
{"id": "C208", "title": "Readers close what they open, and nothing else", "statement": "read_epw, read_bsrn and read_panond return what their parser makes of the text they are pointed to: file, compressed file (.gz), URL (http...), open object. Each file they open is closed exactly once whether or not parsing raises; an open file passed by the user is left open. read_panond refuses open files with TypeError. Unlike retrieve_sam they are case-sensitive: a URL in capitals and .GZ are taken for plain files.", "quantifier": "all names and objects, all contents, all parsers, returning or raising", "why_tests_cant": "infinitely many real inputs (and NaN/inf); tests sample a few", "anchors": ["pvlib/iotools/epw.py:read_epw", "pvlib/iotools/bsrn.py:read_bsrn", "pvlib/iotools/panond.py:read_panond", "pvlib/tools.py:_file_context_manager"]}
{"id": "C209", "title": "Scalars, arrays and keywords of the Newton solver", "statement": "method='newton' of the single diode functions accepts scalars mixed with arrays of one common shape and then starts with that shape, whichever of the arguments are arrays; two-dimensional broadcasting (3,1) x (1,4), and empty arrays with scalars, raise ValueError. Keywords given by the user win over the defaults tol=1e-6, maxiter=100. get_pandas_index returns the index of the first pandas argument, None exactly if there is none.", "quantifier": "all numbers of arguments, shapes and keywords", "why_tests_cant": "infinitely many real inputs (and NaN/inf); tests sample a few", "anchors": ["pvlib/singlediode.py:_prepare_newton_inputs", "pvlib/singlediode.py:_shape_of_max_size", "pvlib/tools.py:get_pandas_index"]}
{"id": "C210", "title": "The tables built into pvlib", "statement": "The series of the solar position algorithm and of nutation, the spectrum and absorption coefficients of SPECTRL2, the Perez, Perez-Driesse and DIRINT coefficients, albedos, water, temperature and Huld parameters by name, cell types, the names of variables of every weather service, widths and names of the fields of TMY2 and BSRN files are, entry by entry, those of the source.", "quantifier": "every entry of every table (finite data that all the other claims about these functions rest on)", "why_tests_cant": "infinitely many real inputs (and NaN/inf); tests sample a few", "anchors": ["pvlib/spa.py:L0", "pvlib/spa.py:NUTATION_ABCD_ARRAY", "pvlib/irradiance.py:_get_dirint_coeffs", "pvlib/irradiance.py:_get_perez_coefficients", "pvlib/spectrum/spectrl2.py:_SPECTRL2_COEFFS", "pvlib/albedo.py:SURFACE_ALBEDOS", "pvlib/temperature.py:TEMPERATURE_MODEL_PARAMETERS"]}
{"id": "C211", "title": "Newton's method finds the single diode solution", "statement": "bishop88_i_from_v and bishop88_v_from_i with method='newton' (the default) converge from their own starting points: for every cell without recombination and every voltage from 0 up, or every current up to the light current, the iteration never divides by zero, after its first step falls monotonically towards the diode voltage of the solution, and with enough steps allowed scipy's stopping rule ends it within a fixed multiple of the tolerance of the one solution. With recombination the same holds if the starting point is not below the solution (voltages: currents not positive; currents: not below the current at the starting point).", "quantifier": "all physical cells without breakdown current, all voltages and currents, all tolerances", "why_tests_cant": "infinitely many real inputs (and NaN/inf); tests sample a few", "anchors": ["pvlib/singlediode.py:bishop88_i_from_v", "pvlib/singlediode.py:bishop88_v_from_i", "pvlib/singlediode.py:bishop88", "pvlib/singlediode.py:estimate_voc"]}
{"id": "C212", "title": "The bracket of method='chandrupatla'", "statement": "As long as estimate_voc is below NsVbi (always so without recombination) method='chandrupatla' searches the interval method='brentq' searches, and finds current, voltage and maximum power point with any bracketing root finder that keeps its promise. If estimate_voc exceeds NsVbi the bracket, unlike that of brentq, contains the pole of the recombination current and a second root beyond it: such a root finder may return a current that does not solve the single diode equation.", "quantifier": "all physical cells without breakdown current, all voltages and currents in the bracket, all bracketing root finders; the second part by a concrete module", "why_tests_cant": "infinitely many real inputs (and NaN/inf); tests sample a few", "anchors": ["pvlib/singlediode.py:bishop88_i_from_v", "pvlib/singlediode.py:bishop88_v_from_i", "pvlib/singlediode.py:bishop88_mpp"]}
{"id": "C213", "title": "Longitudes a whole turn apart are one place", "statement": "Longitudes that differ by whole turns (-105 and 255) give the same results: get_solarposition with 'nrel_numpy', 'nrel_numba' and 'ephemeris', the equation of time, sunrise, sunset and transit of the solar position algorithm, and solar_zenith_analytical; hour_angle differs by exactly the turns. A limit of the code: sun_rise_set_transit_geometric answers with events moved by one day per turn.", "quantifier": "all pairs of longitudes k turns apart, all times, time zones, places, conditions and thread counts", "why_tests_cant": "infinitely many real inputs (and NaN/inf); tests sample a few", "anchors": ["pvlib/solarposition.py:get_solarposition", "pvlib/solarposition.py:ephemeris", "pvlib/solarposition.py:sun_rise_set_transit_spa", "pvlib/solarposition.py:sun_rise_set_transit_geometric", "pvlib/solarposition.py:hour_angle", "pvlib/spa.py:solar_position"]}
{"id": "C214", "title": "The two sides of a sheet", "statement": "For a plane and its back (180 - tilt, azimuth + 180): the angles of incidence add up to 180 degrees; with every transposition model direct light falls on one side only, the two sides together receive dni*|cos aoi| and all of ghi*albedo from the ground. Under the isotropic model they together receive exactly dhi, whatever the tilt; under haydavies dhi*(1-AI) plus the circumsolar part times |cos aoi| over the (limited) cosine of the zenith. King's model is not conservative: the two sides receive ghi*(0.012 zenith - 0.04) more than dhi.", "quantifier": "all planes with opposite normals, all positions of the sun, irradiance values, albedos (direct and ground parts: all models)", "why_tests_cant": "infinitely many real inputs (and NaN/inf); tests sample a few", "anchors": ["pvlib/irradiance.py:get_total_irradiance", "pvlib/irradiance.py:isotropic", "pvlib/irradiance.py:haydavies", "pvlib/irradiance.py:king", "pvlib/irradiance.py:get_ground_diffuse", "pvlib/irradiance.py:aoi"]}
{"id": "C215", "title": "The night tare of a ModelChain", "statement": "At a time when no Array has effective irradiance, a ModelChain with the SAPM DC model and a Sandia inverter reports as AC power exactly minus the night tare |Pnt| of the inverter, with any number of Arrays, wiring and losses, by all three entry points, provided every module has C2 > 0 and C3 < 0. If one Array's modules have other signs the AC power of the whole system is NaN at night.", "quantifier": "all systems, numbers of arrays, coefficients, cell temperatures above absolute zero, weather and earlier results", "why_tests_cant": "infinitely many real inputs (and NaN/inf); tests sample a few", "anchors": ["pvlib/modelchain.py:ModelChain.run_model", "pvlib/pvsystem.py:sapm", "pvlib/inverter.py:sandia", "pvlib/inverter.py:sandia_multi", "pvlib/modelchain.py:ModelChain.sandia_inverter"]}
{"id": "C216", "title": "The Sandia preset at night, from the weather", "statement": "A system of fixed Arrays run with ModelChain.with_sapm through run_model: at a time when dni, ghi and dhi are zero the AC power is exactly minus the night tare |Pnt| of the inverter, wherever the sun is (the air mass may be missing), if every parameter and the other weather columns are finite and the modules have C2 > 0 and C3 < 0. If one Array is on a single-axis tracker the AC power of the whole system is NaN while the apparent zenith is above 90 degrees, whatever the weather, the other Arrays and the other models.", "quantifier": "all systems with any number of arrays, all weather, positions of the sun, altitudes and module parameters; the second part for every choice of transposition, incidence, spectral, thermal and loss models", "why_tests_cant": "infinitely many real inputs (and NaN/inf); tests sample a few", "anchors": ["pvlib/modelchain.py:ModelChain.run_model", "pvlib/modelchain.py:ModelChain.with_sapm", "pvlib/tracking.py:singleaxis", "pvlib/irradiance.py:haydavies", "pvlib/spectrum/mismatch.py:spectral_factor_sapm", "pvlib/temperature.py:sapm_cell", "pvlib/inverter.py:sandia"]}
{"id": "C217", "title": "More light and cooler cells never give less power (PVWatts chains)", "statement": "Compare two runs of one ModelChain with the PVWatts DC and inverter models, by any entry points: at a time when every Array has no less effective irradiance and no warmer cells in the second run, every Array's DC power and the AC power of the system are no less there (modules with gamma_pdc <= 0 and no low-light adjustment k, linear temperature factor not negative, DC power at most 30 times the inverter rating). DC power is exactly irradiance/1000 * pdc0 * (1 + gamma_pdc (T - temp_ref)) times series, strings and loss factor; AC power is the PVWatts inverter at the sum over the Arrays.", "quantifier": "all systems with any number of arrays, ratings, coefficients, wiring, losses, weather and entry points", "why_tests_cant": "infinitely many real inputs (and NaN/inf); tests sample a few", "anchors": ["pvlib/modelchain.py:ModelChain.run_model", "pvlib/modelchain.py:ModelChain.run_model_from_effective_irradiance", "pvlib/pvsystem.py:pvwatts_dc", "pvlib/inverter.py:pvwatts", "pvlib/inverter.py:pvwatts_multi"]}
{"id": "C218", "title": "Transposition has no jumps", "statement": "If orientation, position of the sun, irradiance, extraterrestrial radiation (never zero) and albedo vary continuously with something (time, say), 0 <= dhi <= ghi and the beam on the horizontal is not more than ghi, then every column of get_total_irradiance with the models isotropic, klucher, haydavies, reindl and king is a number and varies continuously: also when the sun rises above the horizon or the plane, and where the light goes out and klucher and reindl divide by a global irradiance of zero.", "quantifier": "all continuous inputs over any topological space, all five models without tables in any letter case", "why_tests_cant": "infinitely many real inputs (and NaN/inf); tests sample a few", "anchors": ["pvlib/irradiance.py:get_total_irradiance", "pvlib/irradiance.py:klucher", "pvlib/irradiance.py:haydavies", "pvlib/irradiance.py:reindl", "pvlib/irradiance.py:king", "pvlib/irradiance.py:isotropic"]}
{"id": "C219", "title": "MIDC files: moments, time zones, columns", "statement": "read_midc on a file with columns 'DATE (MM/DD/YYYY)' and the time of day gives exactly the moments its rows name (month, day, hour and minute with or without leading zero), in the zone that the name of the time column stands for (PST and CST are UTC-8 and UTC-6), and leaves order and values of all columns, renaming those in variable_map. read_midc_raw_data_from_nrel asks for the site and the two days and does the same for the raw format (year, day of year, HHMM); values stay under their own names however many fields more than the header the lines have, while read_midc on such a file (if it does not raise) puts every value as many columns too far to the left as there are fields too many. The map of no station takes two columns to one name.", "quantifier": "all files, rows, dates, times, zones and maps", "why_tests_cant": "infinitely many real inputs (and NaN/inf); tests sample a few", "anchors": ["pvlib/iotools/midc.py:read_midc", "pvlib/iotools/midc.py:read_midc_raw_data_from_nrel", "pvlib/iotools/midc.py:_format_index", "pvlib/iotools/midc.py:_format_index_raw", "pvlib/iotools/midc.py:MIDC_VARIABLE_MAP"]}
{"id": "C220", "title": "pvfactors_timeseries: what is simulated, what is reported", "statement": "pvfactors_timeseries hands the solar position, irradiance, times, row geometry and reflectivities of the caller to the engine, with one orientation repeated for all times, and reports incident light on front and back and absorbed light on front and back of the observed row at those times. If the solar zeniths are integers the orientation loses its fraction of a degree: orientations that differ only in it give the same result. A sequence of orientations of a wrong length is a ValueError. A negative number of the observed row counts from the end.", "quantifier": "all engines, inputs, orientations, numbers of rows and observed rows", "why_tests_cant": "infinitely many real inputs (and NaN/inf); tests sample a few", "anchors": ["pvlib/bifacial/pvfactors.py:pvfactors_timeseries"]}
{"id": "C221", "title": "The sun of the solar position algorithm does not jump", "statement": "As time passes or the observer moves, the elevation, zenith and direction of the sun reported by the solar position algorithm vary continuously, although the computation reduces angles modulo 360 degrees at several points and adds hundreds of periodic terms; the azimuth does too except where it passes north (360 to 0) or the sun is straight above or below. The apparent (refracted) elevation varies continuously while the sun is above the switch of the refraction and not within 0.2 degrees of the zenith. At every moment the sun is exactly on the horizon somewhere on the equator.", "quantifier": "all continuous paths through time, latitude (short of the poles), longitude, height (at most 1000 km) and delta T, within 4000 years of 2000; all pressures, temperatures above -273 C and refractions at the horizon", "why_tests_cant": "infinitely many real inputs (and NaN/inf); tests sample a few", "anchors": ["pvlib/spa.py:solar_position", "pvlib/spa.py:solar_position_numpy", "pvlib/solarposition.py:spa_python"]}
{"id": "C222", "title": "An error of measured global irradiance is amplified a few times at most", "statement": "With the sun at the same place, two values of global irradiance g and g' are decomposed into diffuse components (and direct components on the horizontal plane) that differ by at most A |g - g'| + J min(g, g'): for erbs A = 3.25, J = 0.0006; for erbs_driesse A = 3.25, J = 4e-14; for orgill_hollands A = 2.84, J = 0.00015; for boland A = 1 + a_coeff/4, J = 0. So measurement noise does not blow up, and the jumps of the piecewise correlations are that small.", "quantifier": "all non-negative global irradiances, zenith angles with the sun above the horizon wherever max_zenith lets it through, days, and options", "why_tests_cant": "infinitely many real inputs (and NaN/inf); tests sample a few", "anchors": ["pvlib/irradiance.py:erbs", "pvlib/irradiance.py:erbs_driesse", "pvlib/irradiance.py:orgill_hollands", "pvlib/irradiance.py:boland"]}
{"id": "C223", "title": "Warmer air and less wind never give more power (PVWatts chains)", "statement": "Run one ModelChain with the PVWatts DC and inverter models and the SAPM, PVsyst or Faiman thermal model twice by the same entry point, on data that differ only in air temperature and wind speed: at a time when the air is not warmer and the wind not weaker in the second, every Array has the same effective irradiance, its cells are not warmer, and its DC power and the AC power of the system are no less (non-negative light and heat, gamma_pdc <= 0, linear temperature factor not negative, DC power at most 30 times the inverter rating; in runs from weather or plane-of-array irradiance, if the position of the sun is the same: the air temperature enters its refraction).", "quantifier": "all systems with any number of arrays, coefficients, wiring, weather, sites and entry points", "why_tests_cant": "infinitely many real inputs (and NaN/inf); tests sample a few", "anchors": ["pvlib/modelchain.py:ModelChain.run_model", "pvlib/modelchain.py:ModelChain.run_model_from_poa", "pvlib/modelchain.py:ModelChain.run_model_from_effective_irradiance", "pvlib/temperature.py:sapm_cell", "pvlib/temperature.py:pvsyst_cell", "pvlib/temperature.py:faiman", "pvlib/modelchain.py:ModelChain._prep_inputs_solar_pos"]}
{"id": "C224", "title": "A hotter module gives less voltage and less power (De Soto, CEC and PVsyst models)", "statement": "For singlediode of calcparams_desoto, calcparams_cec or calcparams_pvsyst (constant ideality factor) at two cell temperatures in the same light: the open-circuit voltage at the higher temperature is not higher, and the maximum power not larger, whenever at that operating point of the hotter module the junctions are below the band gap and the diode current outweighs the gain in light current by an explicit inequality; if the light current does not grow with temperature (alpha_sc <= 0) it is enough that the light current is below the diode current at the band gap.", "quantifier": "all modules with sensible reference values, all irradiances, all pairs of temperatures above absolute zero", "why_tests_cant": "infinitely many real inputs (and NaN/inf); tests sample a few", "anchors": ["pvlib/pvsystem.py:calcparams_desoto", "pvlib/pvsystem.py:calcparams_cec", "pvlib/pvsystem.py:calcparams_pvsyst", "pvlib/pvsystem.py:singlediode"]}
{"id": "C225", "title": "More ozone, water vapour or aerosol in Bird's clear sky", "statement": "bird: with more ozone or more precipitable water none of the four results (beam, horizontal beam, global, diffuse) grows; with larger aerosol optical depths beam and horizontal beam do not grow.", "quantifier": "all zeniths, air masses up to 29, pressures, aerosols, albedos and pairs of absorber amounts in the range of the model", "why_tests_cant": "infinitely many real inputs (and NaN/inf); tests sample a few", "anchors": ["pvlib/clearsky.py:bird"]}
{"id": "C226", "title": "Rain, dust, snow and warmth: soiling and snow models are monotone", "statement": "kimber: with more rain, lower threshold, longer grace and accumulation periods, more wash dates, slower soiling, a lower cap and less soiling at the start the loss is never larger, at any time. hsu: with more rain, lower threshold, longer accumulation, steeper modules, less fine and less coarse dust, slower settling the ratio is never lower; but with settling velocities as by default, more PM2.5 at the same PM10 never lowers it. coverage_nrel: with less snowfall, more irradiance, warmer air, steeper modules, faster sliding, less initial cover the coverage is never larger.", "quantifier": "all lengths of series, all pairs of inputs ordered this way, all times", "why_tests_cant": "infinitely many real inputs (and NaN/inf); tests sample a few", "anchors": ["pvlib/soiling.py:kimber", "pvlib/soiling.py:hsu", "pvlib/snow.py:coverage_nrel"]}
{"id": "C227", "title": "More light and cooler modules never give less DC power (De Soto and CEC chains)", "statement": "In every completed run of a chain whose DC model is desoto or cec, without ohmic losses and with a constant losses factor, the maximum power reported for an array is the maximum power of the single diode curve of the module its parameters describe, times modules per string, strings and the losses factor. At equal cell temperature more effective irradiance never gives less power; at equal effective irradiance cooler cells never give less power as long as the relative fall in voltage outweighs the rise in photocurrent.", "quantifier": "all systems of such modules, weather series, arrays, times, pairs of runs", "why_tests_cant": "infinitely many real inputs (and NaN/inf); tests sample a few", "anchors": ["pvlib/modelchain.py:ModelChain.run_model", "pvlib/modelchain.py:ModelChain._singlediode", "pvlib/pvsystem.py:calcparams_desoto", "pvlib/pvsystem.py:calcparams_cec", "pvlib/pvsystem.py:scale_voltage_current_power"]}
{"id": "C228", "title": "More DC power never gives less AC power (Sandia and ADR inverters), until the Sandia parabola turns", "statement": "inverter.sandia at a fixed DC voltage: if the curvature is mild, more DC power never gives less AC power, from night through start-up to the rating; the rating is delivered exactly between the voltage-adjusted rated DC power and the second crossing of the parabola with Paco; beyond that crossing more DC power gives strictly less AC power, below the rating; AC never exceeds DC if the efficiency at light load is at most one. inverter.adr in its voltage window: AC power is DC power less the loss polynomial within the limits; more DC power never gives less AC power as long as one more watt loses less than one watt; AC never exceeds DC where losses are not negative.", "quantifier": "all parameter sets satisfying the stated conditions, all voltages, all pairs of DC powers", "why_tests_cant": "infinitely many real inputs (and NaN/inf); tests sample a few", "anchors": ["pvlib/inverter.py:sandia", "pvlib/inverter.py:adr"]}
{"id": "C229", "title": "Townsend's monthly snow loss: value, and more snow never means less loss", "statement": "loss_townsend returns for each period the published expression of that period's weather and of the effective snow of it and the period before (cyclically), limited to [0,1]. With more snow in either period, flatter modules, damper or colder air, less light, longer slant heights, lower edges, more strings affected, steeper angle of repose, larger front share the loss is never smaller. The same snow in more falls counts never more; a total without any fall counts nothing, with a fall between half and all of it.", "quantifier": "all numbers of periods, all finite inputs with light and air above absolute zero, all ordered pairs of inputs", "why_tests_cant": "infinitely many real inputs (and NaN/inf); tests sample a few", "anchors": ["pvlib/snow.py:loss_townsend", "pvlib/snow.py:_townsend_effective_snow"]}
{"id": "C230", "title": "What the wavelet variability model computes", "statement": "scaling.wvm of a finite signal with time step at most 4096 s: mode i is the difference of the averages over windows of 2^i and 2^(i+1) samples of the signal continued by its mirror image, the last mode the coarsest average; the smoothed signal is the sum of the modes, all but the last divided by the square root of the variability reduction on the time scale 2^i dt. The reduction is N^2/(N + 2 sum exp(-d/(v/2 t))) and never smaller for sites farther apart, slower clouds, shorter times.", "quantifier": "all finite signals and lengths, lists of distances, positive cloud speeds and time steps up to 4096 s, samples and modes", "why_tests_cant": "infinitely many real inputs (and NaN/inf); tests sample a few", "anchors": ["pvlib/scaling.py:wvm", "pvlib/scaling.py:_compute_wavelet", "pvlib/scaling.py:_compute_vr"]}
{"id": "C231", "title": "Air mass formulas, and that a lower sun means more air mass", "statement": "get_relative_airmass returns, for each of its eight models and every zenith from 0 to 90 (the two secant models: below 90), the published formula. Seven models grow strictly with zenith up to the horizon: young1994 and simple from 0 on, kasten1966, kastenyoung1989, gueymard1993 and pickering2002 from 0.1 degrees on, gueymard2003 from 1 degree on. youngirvine1967 grows while the secant is at most 16.67 and falls from 16.68 on. The default model gives less than one overhead and still less a thousandth of a degree off. alt2pres, pres2alt, gueymard94_pw and bird_hulstrom80_aod_bb are the published formulas.", "quantifier": "all model names in any case, all zeniths (real numbers), all pairs of zeniths, all altitudes below the top of the model atmosphere, non-negative pressures, temperatures above absolute zero", "why_tests_cant": "infinitely many real inputs (and NaN/inf); tests sample a few", "anchors": ["pvlib/atmosphere.py:get_relative_airmass", "pvlib/atmosphere.py:alt2pres", "pvlib/atmosphere.py:pres2alt", "pvlib/atmosphere.py:gueymard94_pw", "pvlib/atmosphere.py:bird_hulstrom80_aod_bb"]}
{"id": "C232", "title": "The current-voltage curve is concave; fill factor", "statement": "Between two voltages the current i_from_v reports lies strictly above the chord, so a module whose voltage ripples between two non-negative values gives on average less power than at the mean voltage. The points singlediode reports in daylight, whichever its method, obey v_oc/2 <= v_mp < v_oc and i_sc/2 <= i_mp < i_sc; the fill factor p_mp/(i_sc v_oc) lies strictly between a quarter and one; i_x exceeds half of i_sc and i_xx half of i_mp.", "quantifier": "all modules with positive photo-, saturation current and thermal voltage and non-negative series resistance and shunt conductance, all method names, all pairs of voltages and weights", "why_tests_cant": "infinitely many real inputs (and NaN/inf); tests sample a few", "anchors": ["pvlib/pvsystem.py:singlediode", "pvlib/pvsystem.py:i_from_v", "pvlib/singlediode.py:_lambertw", "pvlib/singlediode.py:bishop88_mpp"]}
{"id": "C233", "title": "Huld's model with the coefficients it ships", "statement": "pvarray.huld with a cell type it knows (csi, cis, cdte in any capitalisation) in either version (pvgis5, pvgis6) and a positive nameplate power gives, between 80 and 2000 W/m2 and module temperatures of -40 to 100 degrees, a positive power that grows strictly with irradiance and falls strictly with temperature. In the faintest light (up to 0.1 W/m2, at 25 degrees) the power is negative for every one of the six coefficient sets.", "quantifier": "all six shipped coefficient sets, all capitalisations, all positive nameplate powers, all irradiances and temperatures of the ranges (real numbers)", "why_tests_cant": "infinitely many real inputs (and NaN/inf); tests sample a few", "anchors": ["pvlib/pvarray.py:huld", "pvlib/pvarray.py:_infer_k_huld"]}
{"id": "C234", "title": "PVsyst modules: more light never gives less power, warmer modules never give more", "statement": "singlediode of calcparams_pvsyst gives a positive maximum power that grows strictly with irradiance at a given cell temperature, although the shunt resistance falls with irradiance, as long as the dark shunt resistance exceeds the one in strong light at most 1 + exp 2 (8.4) times. A ModelChain with PVsyst modules reports for every array the maximum power of one module at the reported effective irradiance and cell temperature, times the modules in series, the strings and the loss factor; of two runs at the same cell temperature the one with more effective irradiance reports no less DC power; of two runs in the same light the warmer one reports no more, as long as the diodes outweigh the gain in light current.", "quantifier": "all PVsyst modules with such shunt resistances, all positive irradiances, all cell temperatures that keep light current and ideality factor positive; all chains with the PVsyst model and no ohmic loss, all runs, arrays and hours (real numbers)", "why_tests_cant": "infinitely many real inputs (and NaN/inf); tests sample a few", "anchors": ["pvlib/pvsystem.py:calcparams_pvsyst", "pvlib/pvsystem.py:singlediode", "pvlib/modelchain.py:ModelChain.run_model"]}
{"id": "C235", "title": "Chains with Sandia modules: what they report, and more light never gives less", "statement": "A ModelChain with Sandia (SAPM) modules reports for every array in the light, column by column, the published equations at the reported effective irradiance and cell temperature: currents times the strings, voltages times the modules in series, power times both, all times the factor of the system losses. Of two runs at the same cell temperature the one with more effective irradiance reports no less current, voltage and power, as long as the coefficients let the current and voltage of the maximum power point grow up to the brighter light (which up to one sun follows from the signs of the coefficients for the voltage).", "quantifier": "all Sandia modules, all positive effective irradiances, all cell temperatures; all chains with the SAPM and no ohmic loss, all runs, arrays and hours (real numbers)", "why_tests_cant": "infinitely many real inputs (and NaN/inf); tests sample a few", "anchors": ["pvlib/pvsystem.py:sapm", "pvlib/modelchain.py:ModelChain.sapm", "pvlib/modelchain.py:ModelChain.run_model"]}
{"id": "C236", "title": "Denser rows", "statement": "For rows closer together (a larger ground coverage ratio): tracking.singleaxis with backtracking turns further back (on level ground with symmetric limits: to a rotation of no larger size), and without backtracking the ratio is irrelevant; shading.shaded_fraction1d is no smaller, for any rotations of the two rows, axis offset and cross-axis slope, with a sun in front of the slope; from every point of a row less sky and less ground is visible (vf_row_sky_2d, vf_row_ground_2d), and so for the mean over a segment (vf_row_sky_2d_integ); masking_angle at every height, masking_angle_passias and the diffuse loss of sky_diffuse_passias are no smaller; the unshaded fraction of the ground (bifacial.utils) is no larger.", "quantifier": "all suns above the horizon, axes, rotations, limits and slopes; all ground coverage ratios (real numbers)", "why_tests_cant": "infinitely many real inputs (and NaN/inf); tests sample a few", "anchors": ["pvlib/tracking.py:singleaxis", "pvlib/shading.py:shaded_fraction1d", "pvlib/shading.py:masking_angle", "pvlib/shading.py:masking_angle_passias", "pvlib/shading.py:sky_diffuse_passias", "pvlib/bifacial/utils.py:vf_row_sky_2d", "pvlib/bifacial/utils.py:vf_row_ground_2d", "pvlib/bifacial/utils.py:vf_row_sky_2d_integ", "pvlib/bifacial/utils.py:_unshaded_ground_fraction"]}
{"id": "C237", "title": "More losses, less power", "statement": "Two ModelChain runs from the same data, of chains that differ only in their system losses (losses_model and losses_parameters), report for every array the same effective irradiance and cell temperature, and every column of their DC results (power, currents and voltages alike) is what it would be without losses times the product of (1 - loss/100) over the ten kinds of PVWatts losses (those given, else the defaults 2, 3, 0, 2, 2, 0.5, 1.5, 1, 0 and 3), or times one with no_loss. So the chain with no smaller percentages reports no more DC power, current or voltage and, with a PVWatts inverter fed at most 30 times its rating, no more AC power; a kind with 100 percent leaves nothing. Two chains that differ only in their reflection losses (aoi_model, one with no_loss) report the same cell temperature (any model but noct_sam), and the one without reports no less effective irradiance and, with PVWatts modules, no less DC power.", "quantifier": "all chains, whatever their models, all entry points, data, arrays and hours; all percentages up to 100 (real numbers)", "why_tests_cant": "infinitely many real inputs (and NaN/inf); tests sample a few", "anchors": ["pvlib/modelchain.py:ModelChain.pvwatts_losses", "pvlib/modelchain.py:ModelChain.no_extra_losses", "pvlib/modelchain.py:ModelChain.no_aoi_loss", "pvlib/modelchain.py:ModelChain.run_model", "pvlib/pvsystem.py:PVSystem.pvwatts_losses", "pvlib/pvsystem.py:pvwatts_losses"]}
{"id": "C238", "title": "Ohmic wiring losses of a chain", "statement": "dc_ohms_from_percent wires lose, at the rated current of the array, their percentage of its rated power, and at any other current that percentage of (rated voltage times current) times current over rated current; more percent and more current lose more. Two ModelChain runs from the same data, of chains that differ only in their wires (dc_ohmic_model and array_losses_parameters), report for every array the same effective irradiance, cell temperature and all columns of the DC results but p_mp; the powers differ by exactly the difference of what the wires lose, times what the system losses leave. So a larger percentage (or wires instead of dc_ohmic_model no_loss) never gives more DC power, nor, for one array on a Sandia inverter that is not overloaded, more AC power.", "quantifier": "all chains, whatever their models, all entry points, data, arrays and hours; all percentages, numbers of modules and strings (real numbers)", "why_tests_cant": "infinitely many real inputs (and NaN/inf); tests sample a few", "anchors": ["pvlib/modelchain.py:ModelChain.dc_ohmic_model", "pvlib/modelchain.py:ModelChain.no_dc_ohmic_loss", "pvlib/modelchain.py:ModelChain.run_model", "pvlib/pvsystem.py:dc_ohms_from_percent", "pvlib/pvsystem.py:dc_ohmic_losses", "pvlib/pvsystem.py:Array.dc_ohms_from_percent", "pvlib/inverter.py:sandia"]}
{"id": "C239", "title": "How the sky models compare", "statement": "With the sun above the horizon, some light, diffuse light a part of the global and direct light at most the extraterrestrial, get_sky_diffuse gives for isotropic, haydavies, reindl, klucher and king the published formulas, so that on every plane: klucher gives no less than isotropic and at most four times as much; haydavies gives more than isotropic exactly where the ratio of the beam on the plane to the beam on the horizontal exceeds the part of the sky in view, less where it is smaller, and on a plane facing away from the sun isotropic times (1 - dni/dni_extra); reindl gives no less than haydavies, and the same on the horizontal or without direct light; king gives no less than isotropic from a zenith of 3.34 degrees on and no more up to 3.33. What a model gives more of sky diffuse light it gives more of poa_global; direct and ground-reflected light do not depend on it.", "quantifier": "all planes, positions of the sun above the horizon, all irradiance values in those bounds, all albedos (real numbers)", "why_tests_cant": "infinitely many real inputs (and NaN/inf); tests sample a few", "anchors": ["pvlib/irradiance.py:get_sky_diffuse", "pvlib/irradiance.py:isotropic", "pvlib/irradiance.py:klucher", "pvlib/irradiance.py:haydavies", "pvlib/irradiance.py:reindl", "pvlib/irradiance.py:king", "pvlib/irradiance.py:get_total_irradiance"]}
{"id": "C240", "title": "Better ventilated mountings are cooler", "statement": "An Array that is given no temperature parameters has those of the built-in table that its racking model and module type name. With the sapm model, in any irradiance >= 0, at any air temperature and in wind up to 25 m/s, get_cell_temperature is lowest for open_rack glass_polymer, then open_rack glass_glass, close_mount glass_glass, and highest for insulated_back glass_polymer. With the pvsyst model it is lower for freestanding than for semi_integrated than for insulated mountings (strictly as soon as there is light), whatever the wind, and equals air temperature plus the light absorbed over the loss coefficient.", "quantifier": "all arrays with inferred parameters, all weather in those bounds (real numbers)", "why_tests_cant": "infinitely many real inputs (and NaN/inf); tests sample a few", "anchors": ["pvlib/pvsystem.py:Array.__init__", "pvlib/pvsystem.py:Array._infer_temperature_model_params", "pvlib/pvsystem.py:Array.get_cell_temperature", "pvlib/temperature.py:TEMPERATURE_MODEL_PARAMETERS", "pvlib/temperature.py:sapm_cell", "pvlib/temperature.py:pvsyst_cell"]}
{"id": "C241", "title": "Brighter ground under the arrays of a chain", "statement": "Two run_model calls on the same weather, of chains that differ only in the albedo of their arrays: if the weather has no albedo column, each array's poa_ground_diffuse, poa_diffuse and poa_global rise by ghi times the rise in albedo times (1 - cos tilt) / 2, poa_direct and poa_sky_diffuse, the angle of incidence and the modifiers stay the same, and the effective irradiance rises by that light times the spectral modifier times FD; so over brighter ground no array has less global or effective irradiance, and with cell temperatures from the data no PVWatts array has less DC power. If every frame of the weather has an albedo column, the arrays' own albedo changes no result.", "quantifier": "all chains, whatever their models, all weather, arrays (fixed or tracking) and hours; all albedos (real numbers)", "why_tests_cant": "infinitely many real inputs (and NaN/inf); tests sample a few", "anchors": ["pvlib/modelchain.py:ModelChain.run_model", "pvlib/modelchain.py:ModelChain._prep_inputs_albedo", "pvlib/modelchain.py:ModelChain.effective_irradiance_model", "pvlib/pvsystem.py:PVSystem.get_irradiance", "pvlib/pvsystem.py:Array.get_irradiance", "pvlib/irradiance.py:get_total_irradiance", "pvlib/irradiance.py:get_ground_diffuse"]}
{"id": "C242", "title": "The course of the sun through the day, and the length of the day", "statement": "solar_zenith_analytical grows with the distance of the hour angle from noon up to half a turn (strictly off the poles); at midnight it is 180 degrees less |latitude + declination|; the sun is above the horizon at every hour exactly where |latitude + declination| exceeds 90 degrees and at no hour exactly where |latitude - declination| is at least 90 degrees. sun_rise_set_transit_geometric gives a sunrise and a sunset exactly where neither exceeds 90 degrees; the time between them grows with the latitude when the declination is positive, and with the declination at a positive latitude, on any dates, in any zones and at any longitudes; at one place and date the longer day begins earlier and ends later about the same noon; it is longer than twelve hours exactly where latitude and declination have the same sign, shorter where they have opposite signs, twelve hours exactly on the equator or at the equinox.", "quantifier": "all latitudes between the poles, all declinations and hour angles, all time zones with one midnight on the date and no change of clocks since, all dates and longitudes (real numbers)", "why_tests_cant": "infinitely many real inputs (and NaN/inf); tests sample a few", "anchors": ["pvlib/solarposition.py:solar_zenith_analytical", "pvlib/solarposition.py:sun_rise_set_transit_geometric"]}
{"id": "C243", "title": "The course of the declination through the year, and the longest day", "statement": "declination_cooper69 rises from day -10.25 to day 172.25 and falls from there to day 354.75; on no whole day of any year is it above that of day 172 or below that of day 355, which is the opposite. So the time between the sunrise and sunset that sun_rise_set_transit_geometric gives for it, north of the equator, lengthens from the 21st of December to the 21st of June and shortens for the rest of the year, south of it the other way round; day 172 is the longest of the year north of the equator and day 355 the shortest, south of it the other way round; sunrise and sunset exist on every day up to a latitude of 66.55 degrees. At latitudes from 23.45 degrees on, solar_zenith_analytical at noon falls as the declination rises.", "quantifier": "all days (numbers, also fractional and of other years), all latitudes, time zones, dates and longitudes (real numbers)", "why_tests_cant": "infinitely many real inputs (and NaN/inf); tests sample a few", "anchors": ["pvlib/solarposition.py:declination_cooper69", "pvlib/solarposition.py:sun_rise_set_transit_geometric", "pvlib/solarposition.py:solar_zenith_analytical"]}
{"id": "C244", "title": "The course of a clear day", "statement": "ineichen, given the absolute air mass of the same sun (any air-mass model but youngirvine1967, from the zenith on where it is monotone, any pressure), turbidity at least 1 and no Perez enhancement, never gives more global or beam irradiance for a lower sun, down to the nadir. At any place and on any day, with the zenith angle of solar_zenith_analytical, haurwitz (global) and simplified_solis and ineichen (global and beam, ineichen with kastenyoung1989 air mass where the noon sun is at least 0.1 degrees from the zenith) are the same as long before as after noon, greatest at noon and never more the further from noon; haurwitz is positive exactly while the sun is above the horizon.", "quantifier": "all latitudes and declinations, all pairs of hour angles up to half a turn, all turbidities at least 1, altitudes from -980 m, pressures, aerosol and water in the published range, extraterrestrial irradiances (real numbers)", "why_tests_cant": "infinitely many real inputs (and NaN/inf); tests sample a few", "anchors": ["pvlib/clearsky.py:ineichen", "pvlib/clearsky.py:haurwitz", "pvlib/clearsky.py:simplified_solis", "pvlib/atmosphere.py:get_relative_airmass", "pvlib/atmosphere.py:get_absolute_airmass", "pvlib/solarposition.py:solar_zenith_analytical"]}
