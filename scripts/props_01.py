INF = "infinitely many real inputs (and NaN/inf); tests sample a few"
P('C01','Sandia inverter: AC output limits',
  "inverter.sandia never returns more than Paco (given Paco >= 0), returns exactly -|Pnt| whenever p_dc < Pso, and in the operating range returns min(Paco, efficiency curve).",
  "all DC voltages and powers and all parameter sets, including NaN and infinite inputs", INF,
  ["pvlib/inverter.py:sandia","pvlib/inverter.py:_sandia_limits","pvlib/inverter.py:_sandia_eff"],
  "Model `_sandia_eff`, `_sandia_limits`, `sandia` over `Fl`; case analysis.")
P('C02','Sandia inverter: rated point and start-up point',
  "At v_dc = Vdco and p_dc = Pdco the modelled AC power is exactly Paco; at v_dc = Vdco and p_dc = Pso it is exactly min(Paco, 0).",
  "all parameter sets with Pdco != Pso (Pdco >= Pso)", INF,
  ["pvlib/inverter.py:sandia","pvlib/inverter.py:_sandia_eff"],
  "Field arithmetic on the finite reduction of the model.")
P('C03','sandia_multi agrees with sandia and ignores input order',
  "sandia_multi raises ValueError iff the two lists have different lengths; with one MPPT input it returns what sandia returns (when the DC power is non-zero or in the night range); permuting the (v, p) inputs together never changes the result; splitting one input into several at the same voltage leaves the result unchanged.",
  "all lists of inputs of any length, all parameters", "unbounded number of MPPT inputs and real values",
  ["pvlib/inverter.py:sandia_multi"],
  "Model the loop as a fold; permutation invariance by induction over `List.Perm`.")
P('C04','ADR inverter output range',
  "inverter.adr returns NaN or a value between -|Pnt| and Pacmax; it is NaN for every finite non-zero DC voltage outside the widened voltage window, and exactly the night tare when the DC voltage is zero (Pacmax permitting).",
  "all inputs and parameters", INF,
  ["pvlib/inverter.py:adr"], "Model adr over `Fl`, nanmax over lists; case analysis.")
P('C05','PVWatts inverter: range, zero, NaN, energy conservation, monotonicity',
  "inverter.pvwatts is NaN exactly when pdc is NaN (finite parameters, pdc0 > 0), otherwise lies in [0, eta_inv_nom*pdc0]; it is 0 at pdc = 0; with the default efficiencies it never exceeds the DC power; and it is non-decreasing in pdc up to 30 times the nameplate.",
  "all pdc, pdc0 > 0, efficiencies", INF,
  ["pvlib/inverter.py:pvwatts","pvlib/inverter.py:pvwatts_multi"], "Model incl. the `where=` guarded division; nlinarith for monotonicity.")
P('C06','Transformer model solves its loss balance',
  "transformer.simple_efficiency returns the output power P satisfying P + no_load*rating + load_loss*P^2/rating = input power; hence output <= input, zero output exactly at the no-load loss, strictly increasing in the input.",
  "all input powers, loss parameters >= 0, rating > 0 with non-negative discriminant", INF,
  ["pvlib/transformer.py:simple_efficiency"], "Quadratic identity with Real.sqrt, separate treatment of load_loss = 0.")
P('C07','NREL snow coverage equals a step-by-step physical recurrence',
  "snow.coverage_nrel (vectorised with cumsum/groupby/ffill/clip) returns at each time the value of the simple recurrence: 1 on a new-snowfall step; otherwise max(0, previous coverage - slide amount).",
  "all time series of any length, any increasing index, with or without snow depth", "unbounded series; vectorised vs. sequential equivalence",
  ["pvlib/snow.py:coverage_nrel","pvlib/snow.py:fully_covered_nrel"], "Model vectorised pipeline on lists, refinement to a recurrence by induction.")
P('C08','NREL snow coverage stays within [0,1], resets to 1 on snowfall and never grows otherwise',
  "If initial_coverage is in [0,1] then every coverage value is in [0,1]; it is 1 on every new-snowfall step; between snowfalls it never increases.",
  "all time series of any length", "unbounded series",
  ["pvlib/snow.py:coverage_nrel"], "Invariant over the recurrence of C07.")
P('C09','dc_loss_nrel rounds coverage up to whole strings',
  "snow.dc_loss_nrel returns k/num_strings for the least integer k >= coverage*num_strings: it is in [0,1], at least the coverage, less than coverage + 1/num_strings, and 0 iff coverage is 0.",
  "all coverages in [0,1] and all positive integers num_strings", INF, ["pvlib/snow.py:dc_loss_nrel"], "Int.ceil lemmas.")
P('C10','Townsend snow loss is a fraction and is zero with no snow',
  "snow.loss_townsend returns NaN or a value in [0,1] for every month; and for finite sane inputs exactly 0 when neither this month nor the previous month (cyclically) had snow events.",
  "all monthly series of any length and all parameters", INF, ["pvlib/snow.py:loss_townsend","pvlib/snow.py:_townsend_effective_snow"], "Model with List.rotate; clip range.")
P('C11','Kimber soiling equals a day-by-day recurrence with cleaning events',
  "soiling.kimber (cumsum minus forward-filled cleaning, capped) equals at each step: 0 if the step is in a grace window or is a wash date, else min(max_soiling, previous + rate); so it is always in [0, max_soiling].",
  "all rainfall series of any length, any thresholds, wash dates, initial soiling >= 0", "unbounded series",
  ["pvlib/soiling.py:kimber"], "List model of cumsum/ffill; induction.")
P('C12','HSU soiling ratio range and reset',
  "soiling.hsu returns 1 right after every cleaning event, stays within (1-0.3437, 1], and never increases between cleanings.",
  "all rainfall/PM series of any length", "unbounded series", ["pvlib/soiling.py:hsu"], "List model; erf defined as an integral, bounds proved from the Gaussian integral.")
P('C13','Single-axis tracker respects its rotation limits and reports NaN at night',
  "tracking.singleaxis: for every sample with apparent_zenith > 90 all four outputs are NaN; otherwise tracker_theta lies in [min_angle, max_angle], surface_tilt in [0,180], surface_azimuth in [0,360) and aoi in [0,180].",
  "all solar positions and tracker parameters", INF, ["pvlib/tracking.py:singleaxis"], "Model the whole function for one sample over `Fl`.")
P('C14','Tracker surface orientation is the orientation of its normal',
  "calc_surface_orientation returns a tilt/azimuth pair whose unit vector (sin t sin a, sin t cos a, cos t) is exactly the normal of the rotated tracker plane.",
  "all tracker rotations, axis tilts and azimuths", INF, ["pvlib/tracking.py:calc_surface_orientation","pvlib/tracking.py:_unit_normal"], "Complex.arg polar form.")
P('C15','True tracking minimises the angle of incidence',
  "Without backtracking and rotation limits, the rotation chosen by singleaxis gives an angle of incidence no larger than that of any other rotation about the same axis.",
  "all sun positions above the horizon, all axis orientations, all alternative rotations", "optimality against a continuum of alternatives",
  ["pvlib/tracking.py:singleaxis","pvlib/shading.py:projected_solar_zenith_angle","pvlib/irradiance.py:aoi"], "cos(aoi) = R cos(theta - omega) identity.")
P('C16','Backtracking eliminates row-to-row shade',
  "For a sun above the slope plane, the backtracked rotation gives zero shaded fraction according to shading.shaded_fraction1d with the same geometry, and never rotates further from horizontal-of-slope than true tracking demands.",
  "all sun positions with cos(psza - cross_axis_tilt) >= 0, all gcr in (0,1], all cross-axis tilts", "cross-module geometric guarantee over a continuum",
  ["pvlib/tracking.py:singleaxis","pvlib/shading.py:shaded_fraction1d"], "Substitute the arccos correction into the shaded-fraction formula.")
P('C17','aoi_projection is the dot product of the sun and normal unit vectors',
  "irradiance.aoi_projection equals the dot product of the two unit vectors, hence lies in [-1,1] without clipping, is invariant under a common rotation of both azimuths, and aoi is in [0,180] with cos(aoi) = projection.",
  "all angles", INF, ["pvlib/irradiance.py:aoi_projection","pvlib/irradiance.py:aoi"], "Trigonometric identities, Cauchy-Schwarz.")
P('C18','Beam component is non-negative and is dni*cos(aoi) in front of the plane',
  "irradiance.beam_component is NaN or >= 0, equals dni*projection when that is positive, 0 when the sun is behind the plane, and equals the poa_direct of poa_components for the matching aoi.",
  "all angles and irradiances", INF, ["pvlib/irradiance.py:beam_component","pvlib/irradiance.py:poa_components"], "Case analysis.")
P('C19','Plane-of-array components add up',
  "Whatever transposition model is selected, poa_global = poa_direct + poa_diffuse and poa_diffuse = poa_sky_diffuse + poa_ground_diffuse, and poa_direct is never negative.",
  "all inputs and all transposition models", INF, ["pvlib/irradiance.py:get_total_irradiance","pvlib/irradiance.py:poa_components"], "Direct from the model of get_total_irradiance with every sky model as a case.")
P('C20','Sky-diffuse components sum to the total',
  "With return_components=True, isotropic, haydavies, reindl and perez return components whose sum is poa_sky_diffuse. (For perez_driesse this is false of the code when the total is clipped at zero: a witness is proved.)",
  "all finite inputs", INF, ["pvlib/irradiance.py:isotropic","pvlib/irradiance.py:haydavies","pvlib/irradiance.py:reindl","pvlib/irradiance.py:perez","pvlib/irradiance.py:perez_driesse"], "Algebra; negative witness for perez_driesse.")
P('C21','A horizontal plane sees the whole diffuse sky',
  "At surface_tilt = 0 with the sun well above the horizon, isotropic, haydavies, reindl, perez and perez_driesse all return exactly dhi and the ground-diffuse term is 0, so that poa_global = dhi + dni*cos(zenith).",
  "all irradiances and sun positions with zenith <= 85", INF, ["pvlib/irradiance.py:get_sky_diffuse","pvlib/irradiance.py:get_ground_diffuse"], "Per-model algebra.")
P('C22','Sky diffuse is non-negative',
  "Every transposition model returns NaN or a non-negative value for non-negative dhi, dni, ghi and dni_extra > 0 with dni <= dni_extra.",
  "all inputs in range, all models", INF, ["pvlib/irradiance.py:get_sky_diffuse"], "Positivity arguments per model.")
P('C23','GHI decomposition closes',
  "erbs, erbs_driesse, orgill_hollands, boland and louche return dni and dhi with ghi = dhi + dni*cos(zenith) for every finite input, and dni >= 0, also on rows flagged as bad.",
  "all finite ghi, all zeniths with default or user thresholds", INF, ["pvlib/irradiance.py:erbs","pvlib/irradiance.py:erbs_driesse","pvlib/irradiance.py:orgill_hollands","pvlib/irradiance.py:boland","pvlib/irradiance.py:louche"], "Shared finishing step modelled once per function; algebra.")
P('C24','Diffuse fraction is a fraction',
  "For ghi >= 0, erbs, erbs_driesse, orgill_hollands and boland return 0 <= dhi <= ghi.",
  "all ghi >= 0 and zeniths", "polynomial bounds over a continuum", ["pvlib/irradiance.py:erbs","pvlib/irradiance.py:erbs_driesse","pvlib/irradiance.py:orgill_hollands","pvlib/irradiance.py:boland"], "Polynomial bounds by nlinarith / interval splitting.")
P('C25','Clearness and clear-sky indices are bounded',
  "clearness_index, clearness_index_zenith_independent and clearsky_index return NaN or a value in [0, max]; clearsky_index is NaN exactly when an input is not finite and is 0 when ghi_clear is 0.",
  "all inputs", INF, ["pvlib/irradiance.py:clearness_index","pvlib/irradiance.py:clearsky_index","pvlib/irradiance.py:clearness_index_zenith_independent"], "Case analysis on `Fl`.")
P('C26','DIRINT bins cover the domain exactly once',
  "Every kt' in [0,1], zenith >= 0, w >= 0 (or the sentinel -1) and delta_kt' in [0,1] (or -1) falls in exactly one bin, so dirint's correction factor is a table entry (never NaN); values outside give NaN, never a wrong entry.",
  "all real values", "continuum of values and bin edges", ["pvlib/irradiance.py:_dirint_bins","pvlib/irradiance.py:_dirint_coeffs"], "Model sequential masked assignments; case analysis.")
P('C27','complete_irradiance fills in exactly one missing component, consistently',
  "complete_irradiance raises ValueError unless exactly one component is None; otherwise the returned triple contains the two inputs unchanged and satisfies ghi = dhi + dni*cos(zenith) wherever dni is not NaN or limited.",
  "all inputs", INF, ["pvlib/irradiance.py:complete_irradiance","pvlib/irradiance.py:dni"], "Options and case analysis.")
P('C28','Extraterrestrial radiation stays near the solar constant',
  "get_extra_radiation with the spencer and asce methods returns solar_constant times a factor within [0.96,1.04] for every day of year.",
  "all days of year (any real)", INF, ["pvlib/irradiance.py:get_extra_radiation"], "Bounds on sin and cos.")
P('C29','gti_dirint returns the best iterate',
  "The data returned by the gti_dirint iteration at each point is that of an iteration whose |modelled - measured| is minimal among all iterations performed, and the recorded best difference never increases.",
  "all iteration counts and all sequences of model outputs", "arbitrary histories of iterates", ["pvlib/irradiance.py:_gti_dirint_lt_90"], "Loop model with abstract step; induction.")
P('C30','Shaded fraction and Martinez loss are fractions',
  "shaded_fraction1d is NaN or in [0,1]; direct_martinez is 0 when nothing is shaded, and in [0,1] whenever 0 <= poa_direct <= poa_global, shaded_fraction in [0,1], 0 <= shaded_blocks <= total_blocks.",
  "all inputs in range", INF, ["pvlib/shading.py:shaded_fraction1d","pvlib/shading.py:direct_martinez"], "Clip range; algebra.")
P('C31','Masking angle geometry',
  "masking_angle and ground_angle are the elevation angles of the actual line of sight: their tangent is rise over run; masking_angle is 0 at the top edge and non-increasing in slant_height; sky_diffuse_passias is in [0,1/2] and 0 at zero masking.",
  "all tilts in [0,90], gcr in (0,1), slant heights in [0,1]", INF, ["pvlib/shading.py:masking_angle","pvlib/shading.py:ground_angle","pvlib/shading.py:sky_diffuse_passias"], "Trigonometry.")
P('C32','Golden-section search terminates and stays in the bracket',
  "For every vector of finite intervals lower <= upper the search loop terminates; each returned abscissa lies in its interval (or is NaN where the function is NaN); for a function that is strictly unimodal on an interval the returned point is within atol-scaled distance of the maximiser, no matter what the other elements do.",
  "all functions, all vectors of intervals, all atol > 0", "termination for all inputs", ["pvlib/tools.py:_golden_sect_DataFrame"], "Loop model with well-founded argument on interval length; induction.")
P('C33','Degrees-to-index lookup is total, in range and nearest',
  "_degrees_to_index (altitude and turbidity lookups) returns an index in [0, n-1] whose cell centre is within half a cell (plus tolerance) of the coordinate for every latitude in [-90,90]/longitude in [-180,180], and raises ValueError exactly when the coordinate is beyond the tolerance.",
  "all real coordinates", INF, ["pvlib/tools.py:_degrees_to_index"], "Rational arithmetic with rounding half to even.")
P('C34','Keyword helpers pick exactly the requested parameters',
  "_build_kwargs returns exactly the requested keys present in the dict, with their values; _build_args returns all values in order or raises KeyError naming the first missing key.",
  "all dicts and key lists", "arbitrary dictionaries", ["pvlib/tools.py:_build_kwargs","pvlib/tools.py:_build_args"], "Association-list model; induction.")
P('C35','Dublin Julian day round trip',
  "djd_to_datetime inverts datetime_to_djd: converting any instant to Dublin Julian days and back gives the same instant (to datetime's microsecond resolution), irrespective of time zone.",
  "all datetimes and time zones", "unbounded instants", ["pvlib/tools.py:datetime_to_djd","pvlib/tools.py:djd_to_datetime"], "Integers (microseconds) and rationals.")
P('C36','WVM wavelet decomposition is exact',
  "The wavelet modes returned by scaling.wvm sum to the original signal at every sample; with all variability ratios 1 the smoothed signal is the input; a constant signal is returned unchanged for any plant layout.",
  "all signals of any length, any dt, any layout", "unbounded series", ["pvlib/scaling.py:wvm","pvlib/scaling.py:_compute_wavelet"], "Telescoping sum over list of scales.")
P('C37','Huld / ADR / Batzelis models reproduce the nameplate at reference conditions',
  "pvarray.huld returns pdc0, pvefficiency_adr returns k_a, and batzelis returns (v_mp, i_mp, v_oc, i_sc) at 1000 W/m2 and 25 C; huld and batzelis give zero power at zero irradiance; batzelis voltages are never negative and p_mp = v_mp*i_mp.",
  "all parameter sets", INF, ["pvlib/pvarray.py:huld","pvlib/pvarray.py:pvefficiency_adr","pvlib/pvarray.py:batzelis"], "Algebra on the finite reduction.")
P('C38','Inland-water albedo parameter contract and range',
  "albedo.inland_water_dvoracek raises ValueError unless exactly one of {surface_condition} or {color_coeff and wave_roughness_coeff} is given; for color_coeff in (0,1) the albedo is in (0, color_coeff], equals color_coeff for any sun below the horizon, and is the same for every negative elevation.",
  "all elevations and coefficients, all surface conditions", INF, ["pvlib/albedo.py:inland_water_dvoracek"], "Option cases and rpow bounds.")
P('C39','Location time-zone setter',
  "Location accepts IANA strings, ints, whole floats and tzinfo objects; an integer offset h is stored as the zone whose POSIX-style name is Etc/GMT with the sign reversed; fractional floats and other types raise TypeError; setting then reading tz is idempotent.",
  "all inputs and all sequences of assignments", "arbitrary histories", ["pvlib/location.py:Location.tz"], "State-machine model with string formatting.")
P('C40','lookup_altitude range',
  "lookup_altitude returns 0 for no-data cells and otherwise a multiple-of-28 offset from -450 between -450 and 6662 m for every in-range coordinate.",
  "all coordinates and all raster contents", INF, ["pvlib/location.py:lookup_altitude"], "Raster as an arbitrary function to Fin 256.")
