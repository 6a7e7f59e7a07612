P('C91','ModelChain model choice',
  "Naming a DC, AC, temperature, incidence-angle or spectral model is case-insensitive; a DC name is accepted exactly when it is documented and every Array has the parameters it needs, a temperature name exactly when it is the one the parameters indicate, unknown names raise ValueError. Without a name the first model whose identifying parameters all Arrays have is chosen in the documented order. Once a DC, inferred incidence-angle or temperature model has been accepted, no later computation fails for want of a parameter.",
  "all systems, parameter dicts and names", INF, ["pvlib/modelchain.py:ModelChain.dc_model","pvlib/modelchain.py:ModelChain.infer_dc_model","pvlib/modelchain.py:ModelChain.ac_model","pvlib/modelchain.py:ModelChain.aoi_model","pvlib/modelchain.py:ModelChain.temperature_model","pvlib/modelchain.py:ModelChain.spectral_model"], "Case analysis against independent tables of marks and needs.")
P('C92','ModelChain construction and presets',
  "Construction succeeds exactly when every one of the model choices is accepted and the chain then has exactly those models; with_pvwatts and with_sapm use their presets except where a keyword replaces one; get_orientation knows exactly the documented strategies.",
  "all systems and configurations", INF, ["pvlib/modelchain.py:ModelChain.__init__","pvlib/modelchain.py:ModelChain.with_pvwatts","pvlib/modelchain.py:ModelChain.with_sapm","pvlib/modelchain.py:get_orientation"], "Construction shown equivalent to a record of acceptance conditions.")
P('C93','ModelChain input validation',
  "run_model succeeds only if the weather is one DataFrame or one per Array, all with the same index and the required columns; the from_poa and from_effective_irradiance entry points accept a bare DataFrame only for one Array; violations raise ValueError (TypeError for a bare frame with several Arrays) and a list is treated as the tuple of its elements.",
  "all chains, inputs and previous results", INF, ["pvlib/modelchain.py:ModelChain._assign_weather","pvlib/modelchain.py:ModelChain._check_multiple_input","pvlib/modelchain.py:ModelChain._verify_df","pvlib/modelchain.py:ModelChain._prepare_temperature"], "Case analysis of each entry point.")
P('C94','ModelChain runs do not depend on earlier runs',
  "Whatever the chain computed before, a run raises the same exception or leaves the same values in every result it is responsible for (for each of the three entry points and for complete_irradiance on tuples); complete_irradiance on a bare DataFrame after a run on a 1-tuple is the exception and fails.",
  "all chains, inputs, and all histories of results", INF, ["pvlib/modelchain.py:ModelChain.run_model","pvlib/modelchain.py:ModelChain.run_model_from_poa","pvlib/modelchain.py:ModelChain.run_model_from_effective_irradiance","pvlib/modelchain.py:ModelChain.complete_irradiance"], "Relational (two-state) invariant through every step of the run.")
P('C95','What a ModelChain run computes',
  "After a successful run every Array's results (plane-of-array irradiance, angle of incidence, modifiers, effective irradiance, cell temperature, DC output) are related, step by step, to that Array's own parameters and its own weather by the documented physical models, with DC ohmic losses and the system loss factor applied exactly once, and the AC output is that of the system's inverter model on all DC outputs.",
  "all chains, inputs, numbers of arrays and histories", INF, ["pvlib/modelchain.py:ModelChain.run_model","pvlib/modelchain.py:ModelChain._run_from_effective_irrad","pvlib/modelchain.py:ModelChain.prepare_inputs"], "Each step is shown to refine a per-array specification; composed over the run.")
P('C96','Shape of ModelChain results',
  "Per-array results are tuples with one entry per Array in the order of the Arrays, except that one Array with a bare DataFrame yields bare values; this holds for every per-array result of every entry point.",
  "all chains and inputs", INF, ["pvlib/modelchain.py:ModelChainResult","pvlib/modelchain.py:ModelChainResult.__setattr__"], "Invariant through the run.")
P('C97','Arrays of a ModelChain are independent',
  "The results of an Array (irradiance, incidence angle, modifiers, cell temperature, DC) depend only on the chain's models, the loss parameters, the first frame's sky conditions, that Array and its own weather frame - not on other Arrays, their weather, their number or order, the inverter, or earlier runs. A bare frame, a tuple and a list in which every Array gets the same frame give the same results and the same AC.",
  "all chains, systems, inputs and histories", INF, ["pvlib/modelchain.py:ModelChain.run_model","pvlib/pvsystem.py:PVSystem._validate_per_array"], "The per-array specification of C95 is shown to be functional.")
P('C98','Entry points of a ModelChain agree',
  "Feeding the plane-of-array irradiance computed by run_model back through run_model_from_poa, or the effective irradiance and global plane-of-array irradiance through run_model_from_effective_irradiance, with the same weather, gives the same later results and the same AC power.",
  "all chains, inputs and histories", INF, ["pvlib/modelchain.py:ModelChain.run_model_from_poa","pvlib/modelchain.py:ModelChain.run_model_from_effective_irradiance"], "From the specifications of C95.")
P('C99','Range of ModelChain output power',
  "With a PVWatts inverter the AC output of every run is a finite number between 0 and eta_inv_nom*pdc0 at every time, even where the weather is NaN; with a Sandia inverter it never exceeds Paco and equals the night tare below start-up power; a PVWatts DC model with losses gives exactly the PVWatts formula times modules times the loss factor.",
  "all chains with positive ratings, all weather", INF, ["pvlib/modelchain.py:ModelChain.pvwatts_inverter","pvlib/modelchain.py:ModelChain.sandia_inverter","pvlib/modelchain.py:ModelChain.pvwatts_dc"], "C95 composed with the inverter ranges.")
P('C100','A well configured ModelChain never raises on well formed input',
  "If the models a chain uses compute for its Arrays' parameters, then run_model, run_model_from_poa and run_model_from_effective_irradiance succeed on every well formed input, whatever was run before. In particular a chain built by with_pvwatts from numeric parameters runs on every well formed weather table (given that the sun's position can be computed).",
  "all chains, inputs and histories", INF, ["pvlib/modelchain.py:ModelChain.run_model","pvlib/modelchain.py:ModelChain.with_pvwatts"], "Forward totality of every step, reusing the step specifications.")
P('C101','Ineichen clear sky: closure, range, night and NaN',
  "ineichen equals the published expressions in daylight; its components always satisfy ghi = dhi + dni*max(cos zenith, 0), ghi and dni are non-negative, dhi is non-negative exactly under turbidity of at least ln 2 (a counterexample exists for every smaller one); all components are exactly 0 when the sun is down although the air mass is NaN, NaN in any other input gives NaN, output is proportional to dni_extra and never increases with turbidity or air mass.",
  "all zeniths, air masses, turbidities, altitudes, irradiances", INF, ["pvlib/clearsky.py:ineichen"], "Evaluate the NaN-mapping operations case by case; real inequalities.")
P('C102','Haurwitz clear sky',
  "haurwitz is 1098 cos z exp(-0.059/cos z) for the sun above the horizon and 0 otherwise, lies between 0 and its value for overhead sun, never increases with zenith, and gives 0 (not NaN) for a NaN zenith.",
  "all zeniths", INF, ["pvlib/clearsky.py:haurwitz"], "Monotonicity of c exp(-k/c).")
P('C103','Simplified Solis clear sky',
  "simplified_solis returns finite values for every elevation (day or night), equals the published expressions with water floored at 0.2 cm, propagates NaN, is proportional to dni_extra, and within its published input range is non-negative, bounded by the modified extraterrestrial irradiance, and never decreases as the sun rises.",
  "all elevations and atmospheres", INF, ["pvlib/clearsky.py:simplified_solis"], "Sign of the coefficient polynomials on the published range; monotonicity of exp and powers.")
P('C104','Bird clear sky',
  "bird's components close (ghi = direct_horizontal + dhi, direct_horizontal = dni cos z, 0 from 90 degrees on), every transmittance is in (0, 1] up to air mass 29 (and the Rayleigh one exceeds 1 beyond air mass 30), dni never exceeds 96.62 % of dni_extra, dhi is non-negative, and a NaN air mass makes everything NaN.",
  "all zeniths, air masses up to 29, atmospheres, albedos up to 0.9", INF, ["pvlib/clearsky.py:bird"], "Bounds on each transmittance, then on the product.")
P('C105','Linke turbidity look-up',
  "lookup_linke_turbidity succeeds for every location and time, uses the nearest grid cell, interpolates linearly between the middles of consecutive months (wrapping at the year's ends, leap years included), equals the month's value at its middle, always lies within the range of the site's monthly values, and returns the month's value without interpolation; coordinates off the globe raise ValueError.",
  "all locations, times and turbidity files", INF, ["pvlib/clearsky.py:lookup_linke_turbidity","pvlib/clearsky.py:_interpolate_turbidity","pvlib/clearsky.py:_calendar_month_middles"], "Induction over the interpolation nodes.")
P('C106','Clear-sky detection: inputs and inferred limits',
  "detect_clearsky raises ValueError exactly when a window holds fewer than three samples, the data are shorter than a window, or (inferring limits) the interval is outside 1 to 30 minutes; inferring limits is the same as passing the inferred ones, which are the published values at 1, 5, 15, 30 minutes and non-decreasing between; zero iterations raise UnboundLocalError.",
  "all regular series and limits", INF, ["pvlib/clearsky.py:detect_clearsky","pvlib/clearsky.py:_clearsky_get_threshold"], "Case analysis; monotone interpolation.")
P('C107','Clear-sky detection: what is reported clear',
  "When detect_clearsky returns, a sample is clear exactly when it lies in a window of consecutive samples meeting all six criteria at the scale of the last pass; NaN samples are never clear; the returned scale minimises the squared differences over the clear samples; the warning is issued exactly when the scale still changed; finite data always give a result; and measurements equal to the clear-sky values keep scale 1.",
  "all data series, limits and iteration counts", INF, ["pvlib/clearsky.py:detect_clearsky","pvlib/clearsky.py:_clear_sample_index","pvlib/clearsky.py:_to_centered_series"], "Induction over the passes; least-squares algebra.")
P('C108','Analytical zenith and azimuth are the direction of the sun',
  "solar_zenith_analytical and solar_azimuth_analytical give the zenith angle and clockwise-from-north azimuth of the unit vector to the sun determined by latitude, declination and hour angle: zenith is always a number in [0, pi] with the right cosine; for hour angles strictly between -pi and pi and not 0 the azimuth has the right cosine (exactly, or to 1e-8 where the code clamps) and side, and is always a number in [0, 2 pi]; at hour angle 0 it is always due south (wrong where the sun culminates to the north), and hour angles beyond pi give the mirrored azimuth.",
  "all latitudes, declinations and hour angles", INF, ["pvlib/solarposition.py:solar_zenith_analytical","pvlib/solarposition.py:solar_azimuth_analytical"], "Rotation of the unit vector; spherical trigonometry.")
P('C109','Declination and equation of time',
  "The declination formulas stay within 23.45 degrees (Cooper) and 24.3 degrees (Spencer), Cooper's is zero and extreme on the season days, the equation of time stays within 17.4 (Spencer) and 17.6 (PVCDROM) minutes, and all repeat every 365 days.",
  "all days", INF, ["pvlib/solarposition.py:declination_spencer71","pvlib/solarposition.py:declination_cooper69","pvlib/solarposition.py:equation_of_time_spencer71","pvlib/solarposition.py:equation_of_time_pvcdrom"], "Cauchy-Schwarz on each harmonic.")
P('C110','Hour angle of localized times',
  "hour_angle is the hour angle of the instant on its local calendar date, the same in every time zone up to whole turns, whenever the zone's offset at the time equals that at local midnight; it is off by 15 degrees per hour of clock change otherwise; a skipped midnight is replaced by the moment of the jump, a repeated midnight raises ValueError, naive times raise ValueError.",
  "all zones (offset functions), instants, longitudes", INF, ["pvlib/solarposition.py:hour_angle","pvlib/solarposition.py:_times_to_hours_after_local_midnight"], "Zones as arbitrary functions from instants to offsets.")
P('C111','Geometric sunrise, sunset and transit',
  "sun_rise_set_transit_geometric returns, on days without a clock change, the instants of the local date at which the sun is exactly on the horizon and on the meridian, symmetric about transit and at most 12 h from it, the sun being above the horizon exactly between them; NaT exactly when the sun never crosses the horizon; 12 hours at equinox for every latitude; on clock-change days all are off by the change; a missing or repeated local midnight raises.",
  "all zones, instants, sites, declinations", INF, ["pvlib/solarposition.py:sun_rise_set_transit_geometric","pvlib/solarposition.py:_hour_angle_to_hours","pvlib/solarposition.py:_local_times_from_hours_since_midnight"], "Sign of the upward component of the sun's direction.")
P('C112','The ephemeris algorithm',
  "ephemeris terminates (at most four passes for any index) and returns numbers for every time within 10 000 years of 1900: the Kepler iterate solves Kepler's equation to e*1e-4 degrees, true anomaly, declination, right ascension, azimuth in [0, 360) and elevation in [-90, 90] are exactly those of the resulting ecliptic position seen from the site, solar_time is in [0, 24] and equals 12 h plus the hour angle, refraction only raises the sun (by at most 2100 arc seconds at reference density) and vanishes below -1 and above 85 degrees. The internal day count is exact from 1901 to 2100 and wrong outside. One NaT makes every other row use the mean anomaly.",
  "all indexes of times, sites, pressures, temperatures", INF, ["pvlib/solarposition.py:ephemeris"], "Contraction argument for the loop, induction over passes; vector identities.")
P('C113','Threaded SPA equals single-threaded SPA',
  "The numba solar position routine with any number of threads, any interleaving of their writes and any initial contents of the output array produces exactly the array the numpy routine produces: every cell is written exactly once, no two threads write the same cell, no write is out of bounds, and the work is cut into the requested number of chunks differing by at most one element.",
  "all time lists, thread counts, schedules, initial memories, output modes", INF, ["pvlib/spa.py:solar_position_numba","pvlib/spa.py:solar_position_loop","pvlib/spa.py:solar_position_numpy"], "Writes of the chunks are a permutation with distinct cells; induction over the schedule.")
P('C114','Delta T by year and month',
  "calculate_deltat is finite for every year and month, uses the published polynomial of the interval containing the year, jumps by less than stated bounds at each interval boundary, gives 0 for a NaN year, lies in a stated range and increases between 2005 and 2050, and warns exactly outside -1999..3000.",
  "all real years and months", INF, ["pvlib/spa.py:calculate_deltat"], "Peel the where chain; interval arithmetic on polynomials.")
P('C115','Julian day numbering',
  "julian_day_dt counts days: consecutive civil dates differ by exactly 1 in the Gregorian calendar from 1583 and in the Julian calendar before the reform, the fraction is the time of day, noon of 2000-01-01 is 2451545, noon of -4712-01-01 is 0, and it agrees with the Unix time conversion for every instant from 1970; on the afternoon of 1582-10-04 it is wrong by 10 days.",
  "all valid dates and times of day", INF, ["pvlib/spa.py:julian_day_dt","pvlib/spa.py:julian_day"], "Integer arithmetic on floor divisions; induction over days.")
P('C116','Series of the earth position',
  "For every time within 4000 years of 2000 the computed earth-sun distance lies in (0.978, 1.0222) AU (tighter within a century), the heliocentric latitude is within stated bounds, nutation is at most a stated number of degrees, and the true obliquity stays in a stated range; the heliocentric longitude is always in [0, 360).",
  "all times within 4000 years of J2000", INF, ["pvlib/spa.py:heliocentric_radius_vector","pvlib/spa.py:heliocentric_longitude","pvlib/spa.py:heliocentric_latitude","pvlib/spa.py:longitude_obliquity_nutation","pvlib/solarposition.py:nrel_earthsun_distance"], "Amplitude sums of the tables, computed by the kernel.")
P('C117','Geocentric right ascension and declination',
  "SPA's right ascension and declination are exactly the coordinates of the sun's ecliptic direction rotated by the true obliquity, right ascension is in [0, 360), and at every time within 4000 years of 2000 all geocentric quantities are finite with the declination within 24.3 degrees.",
  "all ecliptic positions and times within 4000 years", INF, ["pvlib/spa.py:geocentric_sun_right_ascension","pvlib/spa.py:geocentric_sun_declination"], "Vector rotation identities.")
P('C118','Topocentric elevation and azimuth',
  "For every observer below the poles and every time, SPA's elevation (before refraction) and azimuth are those of the direction from the observer's point on the ellipsoid, raised by the elevation, to the sun at its distance: the parallax terms are the exact difference of the two position vectors, and azimuth is measured clockwise from north in [0, 360).",
  "all sites below the poles, elevations and sun positions", INF, ["pvlib/spa.py:uterm","pvlib/spa.py:xterm","pvlib/spa.py:yterm","pvlib/spa.py:parallax_sun_right_ascension","pvlib/spa.py:topocentric_sun_declination","pvlib/spa.py:topocentric_elevation_angle_without_atmosphere","pvlib/spa.py:topocentric_astronomers_azimuth","pvlib/spa.py:topocentric_azimuth_angle"], "Vector identities on the ellipsoid.")
P('C119','SPA never fails and its refraction and equation of time are sane',
  "Within 4000 years of 2000 and for every site below the poles SPA returns finite elevation in [-90, 90], azimuth in [0, 360) and an equation of time in (-1420, 20] minutes that equals the published one up to whole days; zenith is 90 minus elevation, apparent likewise; refraction is zero below the switch (away from its singular elevations), positive from the horizon to 89.8 degrees and at most 0.63 degrees at reference density, negative at the zenith, and NaN at -5.11 degrees.",
  "all times within 4000 years, sites, pressures, temperatures", INF, ["pvlib/spa.py:solar_position","pvlib/spa.py:equation_of_time","pvlib/spa.py:atmospheric_refraction_correction"], "Compose the range lemmas.")
P('C120','SPA sunrise, sunset and transit',
  "transit_sunrise_sunset raises exactly when a date is not a whole UTC day; the approximate sunrise hour angle is the angle at which the sun's centre is at -0.8333 degrees and NaN exactly when it never is; the transit is within half a day of its approximate time; sunrise and sunset lie H/15 hours before and after the approximate transit plus their altitude corrections, without day wrap errors; up to 60 degrees latitude no day lacks a sunrise; the unwrap of right ascension differences recovers every daily change below 1 degree and loses 1 degree otherwise.",
  "all dates, sites below the poles", INF, ["pvlib/spa.py:transit_sunrise_sunset","pvlib/spa.py:sun_hour_angle_at_sunrise_sunset","pvlib/spa.py:approx_sun_transit_time"], "Case analysis of modulus and arccos; composition with the geocentric bounds.")
P('C121','numba or numpy after any history',
  "Whatever environment the SPA module was imported in and whatever calls (valid, invalid or failing) were made before, a successful call with how='numba' or 'numpy' leaves SPA running numba exactly when how is 'numba' and numba is installed; it raises exactly for another how (changing nothing) or when numba's import fails with something other than ImportError; reloading clears PVLIB_USE_NUMBA, even one the user set.",
  "all environments, histories of calls and how arguments", INF, ["pvlib/solarposition.py:_spa_python_import","pvlib/spa.py:USE_NUMBA"], "State invariant by induction over the history.")
P('C122','get_solarposition: methods, defaults and frames',
  "get_solarposition accepts exactly five method names in any capitalisation and raises ValueError otherwise; missing altitude or pressure is filled from the other by the standard atmosphere; the result depends on the instants only, not on the zone; nrel_numba and nrel_numpy agree from any history and thread count; every method returns one row per time with zenith = 90 - elevation; nrel_numpy always succeeds with elevations in [-90, 90] and azimuths in [0, 360) within 4000 years; nrel_c passes temperature as elevation, and atmos_refract=0 means the default.",
  "all methods, times, sites, histories, thread schedules", INF, ["pvlib/solarposition.py:get_solarposition","pvlib/solarposition.py:spa_python","pvlib/solarposition.py:spa_c","pvlib/solarposition.py:pyephem","pvlib/solarposition.py:_datetime_to_unixtime"], "Set of possible outcomes under all schedules shown to be one frame.")
P('C123','sun_rise_set_transit_spa answers for the local date',
  "For localized times in any zone sun_rise_set_transit_spa never raises (given a valid how) and answers every timestamp with the SPA day of its local calendar date, the same for all times of that date, also around clock changes; naive times raise ValueError; up to 60 degrees latitude transit, sunrise and sunset exist for every date.",
  "all zones (offset functions), instants, sites", INF, ["pvlib/solarposition.py:sun_rise_set_transit_spa"], "Zones as arbitrary functions from instants to offsets; composition with C120.")
P('C124','Earth-sun distance and PyEphem times',
  "nrel_earthsun_distance returns one number in (0.978, 1.0222) per time for any how, thread count and history; PyEphem dates are converted to the nearest microsecond, before and after 1970; sun_rise_set_transit_ephem raises exactly for naive times or a word other than next/previous in any capitalisation, and returns PyEphem's next or previous events accordingly.",
  "all times, dates, histories", INF, ["pvlib/solarposition.py:nrel_earthsun_distance","pvlib/solarposition.py:_ephem_convert_to_seconds_and_microseconds","pvlib/solarposition.py:sun_rise_set_transit_ephem"], "Integer division; composition with C116.")
P('C125','Sunlit fraction of the ground between rows',
  "The fraction of the ground between rows that the infinite-sheds geometry reports as sunlit lies in [0, 1] and is exactly the measure of the ground segment not covered by the shadows of the rows, divided by its length, whenever enough rows are summed; for the whole pitch it is max(0, 1 - gcr |cos(tilt) + sin(tilt) tan(phi)|); the default 10 rows suffice up to gcr 0.6 and 85 degrees and give a wrong 0.9 in a case with gcr 1; a NaN angle is reported as full shade.",
  "all tilts, projected zeniths, ground cover ratios, heights, pitches, ground segments, numbers of rows", INF,
  ["pvlib/bifacial/utils.py:_unshaded_ground_fraction"], "Overlap lemma for one shadow, disjointness of shadows, Lebesgue measure of the union.")
P('C126','View factors of a point on a row',
  "The sky and ground view factors of a point of a row are those of Lambert's law over the angles between the row's own plane and the edges of the row in front; each is in [0, 1], together at most 1, sky grows and ground falls up the slant, and the sky view factor is that of a surface tilted by the tilt plus the masking angle.",
  "all tilts, ground cover ratios and positions with a defined direction to the neighbour", INF,
  ["pvlib/bifacial/utils.py:vf_row_sky_2d","pvlib/bifacial/utils.py:vf_row_ground_2d","pvlib/bifacial/utils.py:_vf_poly"], "Euclidean angle in the plane, integral of Lambert's cosine.")
P('C127','Row-to-sky view factor of a segment',
  "For a segment of a row the view factor to the sky is the mean (integral) over its points, lies in [0, 1], adds up over adjoining segments weighted by length and mirrors when the rotation changes sign; exchanging the bounds gives the complement.",
  "all nonnegative tilts, segments longer than 1e-6", INF, ["pvlib/bifacial/utils.py:vf_row_sky_2d_integ"], "Fundamental theorem of calculus for the distance function.")
P('C128','Ground-to-sky view factor of a point',
  "For rows entirely above the ground the ground-to-sky view factor is half the measure of the cosines of directions that meet none of the rows considered, so it lies in [0, 1].",
  "all tilts, heights, pitches, ground points, numbers of rows", INF, ["pvlib/bifacial/utils.py:vf_ground_sky_2d"], "Order of the rows' edges by angle; measure of a union of gaps.")
P('C129','Crossed strings',
  "The crossed-string view factors are finite and nonnegative; an unobstructed pair of strings is the Lambert integral (Hottel's rule); row-to-ground view factors add up over adjoining parts of ground and, weighted by length, of the row, and telescope over the whole ground; for the whole row and ground they depend neither on height nor on pitch.",
  "all geometries, segments, numbers of rows", INF, ["pvlib/bifacial/utils.py:vf_ground_sky_2d_integ","pvlib/bifacial/utils.py:vf_row_ground_2d_integ","pvlib/bifacial/utils.py:_crossed_string"], "Triangle inequality, integration, telescoping sums.")
P('C130','Bifacial results do not depend on the unit of length',
  "Measuring height and pitch in another unit changes no view factor, no shaded fraction, no number of rows considered and no irradiance of infinite_sheds.",
  "all positive scale factors and geometries", INF, ["pvlib/bifacial/utils.py","pvlib/bifacial/infinite_sheds.py:get_irradiance_poa"], "Homogeneity of distances.")
P('C131','infinite_sheds conserves direct light',
  "The shaded fraction of a row is in [0, 1]; the back of a row has the opposite normal; and per pitch of ground the direct light received by the front, by the back and by the sunlit ground adds up exactly to the direct light on the horizontal, with at most one side of the row lit.",
  "all tilts, azimuths, suns above the horizon within 85 degrees across the rows, ground cover ratios, beam irradiance", INF,
  ["pvlib/bifacial/infinite_sheds.py:_shaded_fraction","pvlib/bifacial/infinite_sheds.py:get_irradiance_poa","pvlib/bifacial/infinite_sheds.py:_backside"], "Both sides expressed by the same shadow width.")
P('C132','infinite_sheds components',
  "For valid input all components of one side are finite and nonnegative, global = direct + sky + ground-reflected, diffuse = sky + ground, sky diffuse never exceeds dhi and no light gives no irradiance; moving circumsolar light to the beam keeps the light on the horizontal.",
  "all valid geometries and irradiances", INF, ["pvlib/bifacial/infinite_sheds.py:get_irradiance_poa","pvlib/bifacial/infinite_sheds.py:_poa_sky_diffuse_pv","pvlib/bifacial/infinite_sheds.py:_poa_ground_pv"], "Composition of C125-C129.")
P('C133','infinite_sheds model choice and both sides',
  "get_irradiance_poa raises exactly for the Hay-Davies model without dni_extra and treats every other model name as isotropic; get_irradiance returns exactly both sides computed separately and poa_global = front + back * bifaciality * (1 + shade) * (1 + transmission), with any failure of either side raised.",
  "all inputs and model names", INF, ["pvlib/bifacial/infinite_sheds.py:get_irradiance","pvlib/bifacial/infinite_sheds.py:get_irradiance_poa"], "Case analysis.")
P('C134','ants2d row segments',
  "Cutting a row into n segments loses nothing: the segments are equal and adjoining, the shaded fractions lie in [0, 1] with the shaded fraction of the row as their mean for either sense of rotation, shade starts at the lower edge, and the mean direct irradiance of the segments is that of the row; all components are finite and nonnegative with global = direct + diffuse and diffuse = sky + ground.",
  "all rotations, suns, ground cover ratios, numbers of segments, ground light", INF, ["pvlib/bifacial/ants2d.py:_shaded_fraction","pvlib/bifacial/ants2d.py:get_irradiance"], "Telescoping of clipped linear functions.")
P('C135','ants2d sky models, slopes and results',
  "ants2d raises exactly for an unknown sky model or a missing dni_extra or airmass the model needs; angles are wrapped to [-180, 180) by whole turns; the back has the opposite normal, so at most one side gets direct light; on flat ground the slope correction changes only the global irradiance, to the sum of components; the result has one entry per row segment and ground segment.",
  "all inputs, models, rotations and slopes", INF, ["pvlib/bifacial/ants2d.py:get_irradiance","pvlib/bifacial/ants2d.py:_apply_sky_diffuse_model","pvlib/bifacial/ants2d.py:_apply_ground_slope"], "Case analysis and the tracker normal.")
P('C136','Bifacial mismatch loss',
  "The mismatch loss is the polynomial with the given coefficients scaled by the fill factor ratio; with the default coefficients it is 0 exactly for uniform irradiance and strictly grows with the spread; a fill factor of 0 behaves as if none was given.",
  "all relative mean absolute differences, coefficient lists, fill factors", INF, ["pvlib/bifacial/loss_models.py:power_mismatch_deline"], "Induction on the coefficients.")
P('C137','Reverse transposition',
  "ghi_from_poa_driesse_2024 rejects a tolerance that is not positive and otherwise always returns: NaN for a NaN reading, 0 for a reading not above 0, NaN (not converged, -1 iterations) when even clearness index 1.25 is modelled to give less than the reading, and otherwise a GHI between 0 and that bound such that, when it is reported as converged, the modelled plane-of-array irradiance crosses the reading within the tolerance; the default tolerance always converges; on a horizontal plane it returns the reading itself, within the tolerance.",
  "all orientations, sun positions up to the horizon, readings, extraterrestrial irradiances, albedos, positive tolerances, optional airmass", INF, ["pvlib/irradiance.py:ghi_from_poa_driesse_2024","pvlib/irradiance.py:_ghi_from_poa","pvlib/irradiance.py:_poa_from_ghi"], "scipy's bisection transcribed; loop invariant (sign change in the bracket) by induction on the iterations.")
P('C138','DIRINDEX',
  "dirindex is never negative; it is the clear-sky DNI times the ratio of the two DIRINT estimates; it returns the clear-sky DNI when the measured GHI is the clear-sky GHI; and it is NaN when the sun is below max_zenith.",
  "all series of any length, thresholds, pressures, dew points", INF, ["pvlib/irradiance.py:dirindex"], "From the DIRINT theorems (C26).")
P('C139','GTI-DIRINT',
  "gti_dirint rejects data without an AOI below 90 degrees and unknown models. For AOI < 90 the components are non-negative or NaN and close (up to clipping DHI at 0); transposed back they reproduce the reading within 1 W/m2 at all such times, or are the best of all max_iterations guesses. For AOI >= 90 they are NaN (at night, at azimuth exactly 180, or when not requested) or close exactly and reproduce the reading exactly with an isotropic sky, with the clearness index averaged over the same day's morning or afternoon rows with 65 < AOI < 80.",
  "all series of any length, orientations, models, numbers of iterations", INF, ["pvlib/irradiance.py:gti_dirint","pvlib/irradiance.py:_gti_dirint_lt_90","pvlib/irradiance.py:_gti_dirint_gte_90","pvlib/irradiance.py:_gti_dirint_gte_90_kt_prime"], "The loop theorems of C29 instantiated with the real pass.")
P('C140','Numerical derivatives of a curve',
  "numdiff returns NaN at the two points at each end; its first derivative is exact for every polynomial of degree at most 4 on any (also unequal) spacing; its second derivative is the classical 5-point formula only for equally spaced points of spacing 1, and a constant function can be given a nonzero second derivative.",
  "all sample points, all polynomials of degree at most 4", INF, ["pvlib/ivtools/utils.py:_numdiff"], "Lagrange interpolation identities; explicit counterexample.")
P('C141','Rectified IV curves',
  "rectify_iv_curve returns exactly the finite points with nonnegative voltage and current, rounded, one per voltage (duplicate voltages averaged), in strictly increasing voltage; the order of the input does not matter and rectifying twice changes nothing more.",
  "all lists of points, NaN included, all decimals", INF, ["pvlib/ivtools/utils.py:rectify_iv_curve"], "Sorting and grouping on lists.")
P('C142','Schumaker quadratic spline',
  "The spline keeps every data point with its value, its knots strictly increase, a piece's slopes lie between those of monotone data, straight lines are reproduced; an interval with an inserted knot is interpolated at its right end only under an exact condition that generally fails.",
  "all data with increasing abscissae, any number of points", INF, ["pvlib/ivtools/utils.py:_schumaker_qspline"], "Case analysis of the knot rule; counterexample.")
P('C143','ASTM E1036 parameters',
  "Voc and Isc are the measured ones when the curve comes close enough to the axes and else the least-squares line's intercept through the nearest points; the maximum power is the largest stationary value of the least-squares polynomial within the window around the largest measured power; pmp = vmp * imp, ff = pmp / (voc * isc); exact curves give exact parameters.",
  "all curves, limits, numbers of points and fit orders", INF, ["pvlib/ivtools/utils.py:astm_e1036"], "Third-party fit and roots by specification (shown satisfiable).")
P('C144','Simple Sandia fit of the single diode equation',
  "Whenever fit_sandia_simple returns, the parameters are those whose curve has the least-squares line of the first downward-sloping prefix (at least the points below vlim * v_oc) as straight part and the least-squares exponential of the points more than ilim * i_sc below it, with a positive saturation current that puts the maximum power and open circuit points on the curve (their mean); it raises TypeError, RuntimeError or ZeroDivisionError exactly when no line, no downward line or no exponential part exists; a curve made of the two parts of a cell gives that cell's five parameters exactly.",
  "all curves, optional points, limits", INF, ["pvlib/ivtools/sde.py:fit_sandia_simple","pvlib/ivtools/sde.py:_sandia_beta0_beta1","pvlib/ivtools/sde.py:_sandia_beta3_beta4","pvlib/ivtools/sde.py:_sandia_simple_params"], "Induction over the prefixes; third-party least squares by specification (shown satisfiable).")
P('C145','Co-content fit of the single diode equation',
  "The co-content array is the integral of Isc - I of the spline at every data point; the co-content of a single diode curve is exactly the quadratic the method fits; the principal-components regression recovers any such quadratic exactly from points on no common conic, and series resistance, shunt resistance and ideality factor follow exactly; the returned saturation current is too small by an exact term and the returned light current misses the short circuit point unless io = 0, isc = 0 or rs = 1.",
  "all splines with at least 6 knots, all single diode curves, all data on no common conic", INF, ["pvlib/ivtools/sde.py:_fit_sandia_cocontent","pvlib/ivtools/sde.py:_cocontent","pvlib/ivtools/sde.py:_cocontent_regress"], "Telescoping sums; fundamental theorem of calculus with the implicit curve differentiated; linear algebra of the change of coordinates.")
P('C146','Steps of the Sandia IV-curve fit',
  "Each refinement step of the Sandia single diode fit does what it is for: the light current puts (0, isc) on the curve, the series resistance puts the maximum power point on it, the shunt resistance is a fixed point exactly when the maximum power condition holds there, and the saturation current passes are the stated number of fixed-point steps whose stopping leaves every voc within tolerance; a NaN in one curve stops the passes for all; for arguments that overflow the Lambert-W step is not Newton's and the series resistance misses the maximum power point; the filter keeps exactly the curves with finite positive in-range values.",
  "all curves, parameter values, index sets and pass counts", INF, ["pvlib/ivtools/sdm/_fit_desoto_pvsyst_sandia.py:_update_io","pvlib/ivtools/sdm/_fit_desoto_pvsyst_sandia.py:_update_rsh_fixed_pt","pvlib/ivtools/sdm/_fit_desoto_pvsyst_sandia.py:_calc_theta_phi_exact","pvlib/ivtools/sdm/_fit_desoto_pvsyst_sandia.py:_filter_params"], "Lambert-W identities over the reals; induction over passes; third-party lambertw by specification (shown satisfiable).")
P('C147','Iteration of the Sandia IV-curve fit',
  "The refinement loop performs between one and maxiter passes, each a refinement of the curves that passed the filter; a curve that is dropped never comes back and keeps its values; it ends early exactly when the relative changes are below tolerance; after it every kept curve meets its short circuit point and the physical filter; initial values are those of the documented formulas, and curves not yet initialised take part with placeholder values; the public fits return these values.",
  "all measured curve sets, iteration limits and tolerances", INF, ["pvlib/ivtools/sdm/_fit_desoto_pvsyst_sandia.py:_update_iv_params","pvlib/ivtools/sdm/_fit_desoto_pvsyst_sandia.py:_initial_iv_params","pvlib/ivtools/sdm/_fit_desoto_pvsyst_sandia.py:_check_converge","pvlib/ivtools/sdm/desoto.py:fit_desoto_sandia","pvlib/ivtools/sdm/pvsyst.py:fit_pvsyst_sandia"], "Induction over loop passes with the filter invariant.")
P('C148','Module parameters extracted from fitted IV curves',
  "Given single diode parameters per curve, fit_desoto_sandia and fit_pvsyst_sandia recover the light current, saturation current, resistances and diode factors of a module whose curves follow the model exactly; fit_desoto_sandia's EgRef, however, is the true band gap times a constant between 1.17 and 1.18, and it raises IndexError if all kept curves above 400 W/m2 share one irradiance; parameters at which the PVsyst shunt fit's residuals vanish are the true ones.",
  "all sets of curves following the model at two or more conditions", INF, ["pvlib/ivtools/sdm/desoto.py:fit_desoto_sandia","pvlib/ivtools/sdm/desoto.py:_fit_desoto_sandia_diode","pvlib/ivtools/sdm/_fit_desoto_pvsyst_sandia.py:_extract_sdm_params","pvlib/ivtools/sdm/pvsyst.py:_fit_pvsyst_sandia_gamma"], "Exact-fit uniqueness of robust and ordinary least squares (specified, shown satisfiable).")
P('C149','fit_desoto solves the datasheet equations',
  "The vector returned by fit_desoto is the solver's, and a vector solves the system exactly if the curve it describes passes through the datasheet's short circuit, open circuit and maximum power points, has stationary power there, and has the open circuit voltage shifted by beta_voc 2 K above the reference; RuntimeError exactly if the solver fails; ValueError exactly for unknown keys in init_guess, which otherwise override the documented starting values.",
  "all datasheets, initial guesses and solvers", INF, ["pvlib/ivtools/sdm/desoto.py:fit_desoto","pvlib/ivtools/sdm/desoto.py:_system_of_equations_desoto"], "Implicit curve shown to exist and differentiated; equation by equation equivalence.")
P('C150','fit_desoto_batzelis closed form',
  "fit_desoto_batzelis returns parameters obeying the method's relations with a Lambert-W value within 2e-11 of the exact one; the resulting curve misses the three datasheet points by exactly stated neglected terms; and scaling the module (parallel and series multiples) scales the parameters accordingly.",
  "all datasheet values with 0 < delta <= 1", INF, ["pvlib/ivtools/sdm/desoto.py:fit_desoto_batzelis"], "Algebra over the reals with the accuracy theorem of the Lambert-W approximation.")
P('C151','fit_pvsyst_iec61853_sandia_2025 steps',
  "Each of the seven estimation steps recovers its parameters exactly from measurements that satisfy that step's equation (temperature coefficients, shunt resistances, series resistance, diode factor, saturation current, light current, final diode factor); the call raises ValueError exactly if alpha_sc is missing and not exactly one point is at standard conditions, or beta_mp is missing and no point is near 1000 W/m2, or no point reaches the minimum irradiance; given values pass through unchanged.",
  "all measurement matrices", INF, ["pvlib/ivtools/sdm/pvsyst.py:fit_pvsyst_iec61853_sandia_2025"], "Uniqueness of exact least squares solutions; case analysis of the filters.")
P('C152','pvsyst_temperature_coeff',
  "Whatever the root finder, the value returned is the centred difference of the true maximum powers (over the whole single diode curve) a cube root of machine epsilon around the reference temperature, divided by the true, positive, maximum power there; the centred difference is within M h^2 / 6 of the derivative of any function with third derivative at most M; it raises only what the maximum power point search raises.",
  "all sensible PVsyst modules, all sound root finders, all thrice differentiable functions", INF, ["pvlib/ivtools/sdm/pvsyst.py:pvsyst_temperature_coeff","pvlib/tools.py:_first_order_centered_difference","pvlib/singlediode.py:bishop88_mpp"], "Global optimality of the maximum power point (C68); mean value inequality applied three times.")
P('C153','fit_cec_sam',
  "fit_cec_sam passes the module's values to PySAM under SAM's names, returns SAM's Il, Io, Rs, Rsh, a, Adj in that order, raises RuntimeError exactly when SAM reports anything but success and KeyError exactly when SAM's answer lacks a name (the first missing one).",
  "all module values and all SAM answers", INF, ["pvlib/ivtools/sdm/cec.py:fit_cec_sam"], "Induction over the key list; SAM is an arbitrary function.")
P('C154','spectrl2: a physical spectrum at every wavelength',
  "For every physical input (sun not below the horizon, nonnegative amounts, albedos in [0,1], asymmetry factor in [0,0.95]) spectrl2 returns, at each of the 122 wavelengths in increasing order, finite values: 0 < dni <= dni_extra, dhi >= 0, poa_direct = dni max(cos aoi,0), Hay-Davies sky diffuse and isotropic ground reflection, both nonnegative, poa_global their sum, and dni cos(zenith) + dhi <= dni_extra cos(zenith)/(1-albedo/2). More air mass, pressure, water vapour, ozone or turbidity never increases dni. Without a Series index and dayofyear it raises ValueError; a Series index overrides dayofyear.",
  "all physical inputs, all days, all wavelengths of the table", INF, ["pvlib/spectrum/spectrl2.py:spectrl2","pvlib/spectrum/spectrl2.py:_spectrl2_transmittances"], "Rational facts about the table by kernel evaluation; real-analysis bounds of transmittances; energy bracket for the diffuse terms.")
P('C155','read_panond: the nesting of PVsyst files is recovered exactly',
  "Parsing any well formed .pan/.ond content (arbitrarily nested objects, fields with or without values, any keys) yields exactly the nested dictionaries of its structure, with the values converted by int/float/list rules and repeated keys replaced, independent of how deep or long the file is. The last line of a file is never read; text after a second '=' is dropped; a blank line between an object and its items raises IndexError or files the item elsewhere.",
  "all well formed contents of any depth and length", INF, ["pvlib/iotools/panond.py:_parse_panond","pvlib/iotools/panond.py:_num_type","pvlib/iotools/panond.py:_element_type","pvlib/iotools/panond.py:read_panond"], "Induction over the content with a heap of dictionaries; the parser's stack is the path in the tree.")
P('C156','read_tmy3: the time index',
  "Every row with an existing date and a time from 00:00 to 24:00 gets the moment it names (24:00 is 00:00 of the next day, also over month and year ends), moments on 29 February being moved to 1 March; with coerce_year no valid file raises, and a typical year of 8760 rows whose months come from any years gets row i (from 0) i+1 hours after the start of the coerced year (29 February skipped in leap years), strictly increasing, the last row being in the following year. Non-existing dates raise ValueError. If the file counts hours from 0, the last row is moved a year ahead.",
  "all files with valid rows; all typical years, all years of the months and all coerce_year", INF, ["pvlib/iotools/tmy.py:read_tmy3"], "Gregorian calendar model; induction over rows; case analysis of month ends.")
P('C157','TMY2 and EPW: time index, fields, time zone',
  "TMY2: all rows are placed in the year of the first row at the beginning of their hour; a typical year has row i exactly i hours after the start of that year; a date that does not exist in the first row's year raises ValueError; the 70 fields of a line are contiguous and non-overlapping. EPW: the same with each row's own year or coerce_year (29 February skipped in leap years; a 29 February coerced to a common year raises ValueError). The header's time zone shifts the index by a whole number of seconds, exactly if it is one.",
  "all rows and files, all line texts long enough, all years, all time zones", INF, ["pvlib/iotools/tmy.py:_read_tmy2","pvlib/iotools/tmy.py:_parsemeta_tmy2","pvlib/iotools/epw.py:_parse_epw"], "Induction over rows and field widths; calendar arithmetic.")
P('C158','read_srml: the time index',
  "For every SRML file of intervals of 1 to 29 minutes or one hour that starts with the first two intervals of a day, the index holds the beginnings of the intervals (times HHMM up to 2400 mean their end), for any number of days. Half-hourly files raise ValueError (the interval is computed as 70), files with fewer than two rows KeyError.",
  "all interval lengths, all rows and days of all years", INF, ["pvlib/iotools/srml.py:_format_index"], "Arithmetic of HHMM integers.")
P('C159','Station networks: the time index',
  "SURFRAD and raw MIDC (year, day of year, hour, minute), SOLRAD and MIDC (year, month, day, hour, minute), CRN (integers YYYYMMDD and HHMM without leading zeros) and BSRN (day and minute of the month) all give exactly the moment their columns name; the same moment by month and day or by day of the year gives the same index; fields out of range raise ValueError.",
  "all dates and times", INF, ["pvlib/iotools/surfrad.py:_format_index","pvlib/iotools/solrad.py:read_solrad","pvlib/iotools/crn.py:read_crn","pvlib/iotools/midc.py:_format_index_raw","pvlib/iotools/midc.py:_format_index","pvlib/iotools/bsrn.py:_parse_bsrn"], "Calendar arithmetic.")
P('C160','read_srml: columns, flags and bad values',
  "For every file of any number of (variable, flag) column pairs, read_srml returns each variable under its pvlib name (element number mapped, instrument number kept; spectral and unknown elements unchanged) followed by its own flags under that name with '_flag'; values flagged 99 and only those are NaN; mapping never produces duplicate names.",
  "all numbers of columns and rows, all element numbers, all values", INF, ["pvlib/iotools/srml.py:read_srml","pvlib/iotools/srml.py:_map_columns"], "Induction over the column pairs; prefix-freeness of the mapped names.")
P('C161','Missing values and layouts of SURFRAD, CRN and SOLRAD files',
  "SURFRAD values equal to -9999.9 and no others become NaN; each CRN column's own sentinel and no other value becomes NaN; headers and widths of the fixed-width formats match and names are distinct.",
  "all values of all columns", INF, ["pvlib/iotools/surfrad.py:read_surfrad","pvlib/iotools/crn.py:read_crn","pvlib/iotools/solrad.py:read_solrad"], "Case analysis; kernel evaluation of the constant tables.")
P('C162','Downloads of several files: which files, which order, what is missing',
  "get_surfrad and get_solrad request exactly one file for each day from the day of start to the day of end, get_srml and get_bsrn one for each month, in order and with distinct names (two-digit years: over less than 100 years); files the server does not have are skipped and reported, all other data are concatenated in order, metadata come from the last available file, any other exception propagates; without any file SURFRAD, SOLRAD and SRML raise ValueError and BSRN returns an empty table with empty metadata. get_surfrad ignores its argument map_variables.",
  "all date ranges, all answers of the server", INF, ["pvlib/iotools/surfrad.py:get_surfrad","pvlib/iotools/solrad.py:get_solrad","pvlib/iotools/srml.py:get_srml","pvlib/iotools/bsrn.py:get_bsrn"], "Induction over the list of files with an arbitrary server; calendar arithmetic.")
P('C163','read_bsrn: logical records',
  "For every file made of logical records, in any order and number, the lines handed to the fixed-width reader for a record are exactly the lines of that record; every two lines of LR0100 and LR0500 become one row in the documented columns; a file without records raises NameError; coordinates are converted from the south pole / antimeridian.",
  "all files, all orders and lengths of records", INF, ["pvlib/iotools/bsrn.py:_parse_bsrn","pvlib/iotools/bsrn.py:_empty_dataframe_from_logical_records"], "Invariant of the scan over the lines.")
P('C164','Waiting for asynchronous results: era5 and SolarAnywhere',
  "get_era5 polls once a second and returns at the first final answer if it comes within the timeout, otherwise raises Timeout after floor(timeout)+1 requests; get_solaranywhere does so on the wall clock, with at most floor(timeout/5)+2 requests if the clock advances at least five seconds per pass; data arriving with the request after the limit are accepted; with a frozen clock SolarAnywhere never ends.",
  "all schedules of server answers, all clocks, all timeouts", INF, ["pvlib/iotools/era5.py:get_era5","pvlib/iotools/solaranywhere.py:get_solaranywhere"], "Induction over the number of polls against an arbitrary server.")
P('C165','read_cams: metadata, time index and units',
  "The metadata section of every CAMS file is read completely (for each key the last value, the column names, and the table left untouched) if it ends with the line of column names, and reading never terminates if there is no such line; the index is the beginning or end of each observation period, for monthly data the first or last day of the month; unless integrated, exactly the irradiation columns are divided by the length of the period in hours.",
  "all files, labels, time steps, dates and values", INF, ["pvlib/iotools/sodapro.py:read_cams"], "Induction over the lines; calendar arithmetic; case analysis.")
P('C166','PVGIS files: sections are recovered exactly',
  "For every PVGIS hourly CSV file made of metadata lines, a header, data lines, a blank line and notes, the parser recovers exactly the entries, names, rows and descriptions (text after a second colon is lost); files without header raise ValueError (or IndexError at a non-blank line without colon); the PVGIS TMY CSV parser finds months, header, the 8760 data lines and notes with and without a time offset line.",
  "all files", INF, ["pvlib/iotools/pvgis.py:_parse_pvgis_hourly_csv","pvlib/iotools/pvgis.py:_parse_pvgis_tmy_csv"], "Induction over the lines of each section.")
P('C167','PVGIS typical years: rolling to local time, coercing the year, horizon',
  "Rolling by tz hours gives row i the values of row i-tz modulo the number of rows, loses nothing and is undone by rolling back; the new index has the month, day and time of the old rows in the coerced year; in a common year every value keeps its moment (up to exactly one year at the turn of the year), in a leap year values around 28 February do not; offsets without zone raise, as does a leap day coerced to a common year. Horizon azimuths are counted from north in [0, 360) with only the duplicate north point removed.",
  "all tables, offsets, years", INF, ["pvlib/iotools/pvgis.py:_coerce_and_roll_tmy","pvlib/iotools/pvgis.py:get_pvgis_tmy","pvlib/iotools/pvgis.py:get_pvgis_horizon"], "Integer modular arithmetic on list positions; calendar arithmetic.")
P('C168','Weather services: column names, units, missing values',
  "For every table Solcast, Solargis, NASA POWER, ERA5 or MERRA-2 sends, each known column is renamed to pvlib's name and each number converted exactly once to pvlib's unit (pressure, precipitable water, temperature, irradiance, precipitation, azimuth), all other columns are unchanged, and the services' codes for missing values become NaN before conversion. Not so for Solargis' clear-sky tilted irradiance (-9 stays), ERA5 long names (unit not converted) and MERRA-2's precipitable water (kg/m2). Names requested from NASA POWER and Meteonorm by pvlib's names come back under the same names.",
  "all tables: any columns, any number of rows, any values", INF, ["pvlib/iotools/solcast.py:_solcast2pvlib","pvlib/iotools/solargis.py:get_solargis","pvlib/iotools/nasa_power.py:get_nasa_power","pvlib/iotools/era5.py:get_era5","pvlib/iotools/merra2.py:get_merra2","pvlib/iotools/meteonorm.py:_get_meteonorm","pvlib/iotools/meteonorm.py:_parse_meteonorm","pvlib/iotools/psm4.py:get_nsrdb_psm4_aggregated"], "Induction over the list of conversions (no interference between them), case analysis of the tables.")
P('C169','Weather services: which time range is requested, how periods are labelled',
  "get_merra2 and get_solaranywhere request exactly the moments given, get_era5 the days in UTC on which they are; Meteonorm ignores the offset of times with a zone (the moment is right only for UTC), NASA POWER requests the local date as UTC date; get_solaranywhere with only one end raises AttributeError; Solcast and Meteonorm label each period by its middle; read_nsrdb_psm4 gives each row the moment of its local time in the zone of the metadata.",
  "all times and offsets, all rows", INF, ["pvlib/iotools/meteonorm.py:_get_meteonorm","pvlib/iotools/merra2.py:get_merra2","pvlib/iotools/era5.py:get_era5","pvlib/iotools/nasa_power.py:get_nasa_power","pvlib/iotools/solaranywhere.py:get_solaranywhere","pvlib/iotools/solcast.py:_solcast2pvlib","pvlib/iotools/psm4.py:read_nsrdb_psm4"], "Integer arithmetic on moments; calendar model.")
P('C170','ACIS values, SolarAnywhere and MERRA-2 metadata, Solargis time resolutions',
  "ACIS station cells: 'M' is NaN, 'T' the given trace value, everything else the number; grids: -999 is NaN; altitude is converted from feet with the data but not in the list of stations. The key-value pairs of SolarAnywhere and MERRA-2 headers are recovered exactly (last value per key); a second colon in a SolarAnywhere piece raises ValueError. Solargis: unknown integer resolutions raise AttributeError, 'PT30M' is not translated.",
  "all cells, all headers", INF, ["pvlib/iotools/acis.py:get_acis_station_data","pvlib/iotools/acis.py:_get_acis","pvlib/iotools/acis.py:get_acis_available_stations","pvlib/iotools/acis.py:get_acis_prism","pvlib/iotools/solaranywhere.py:read_solaranywhere","pvlib/iotools/merra2.py:get_merra2","pvlib/iotools/solargis.py:get_solargis"], "Induction over pieces and lines; case analysis.")
P('C171','get_extra_radiation: every kind of time argument agrees',
  "On dates get_extra_radiation depends on the instant alone: Timestamps, datetimes, dates and DatetimeIndexes in any zone agree; an index gives a Series with each value that of its timestamp alone; the day-of-year methods use the UTC day on which the instant falls; the number of a day in epoch_year and midnight of that day as a date give the same; arrays are computed element by element, and exactly unknown methods and (for pyephem and nrel) non-finite days raise.",
  "all instants, zones, indexes, arrays, methods", INF, ["pvlib/irradiance.py:get_extra_radiation","pvlib/irradiance.py:_handle_extra_radiation_types","pvlib/tools.py:_pandas_to_doy","pvlib/tools.py:_pandas_to_utc","pvlib/tools.py:_scalar_out","pvlib/tools.py:_array_out","pvlib/solarposition.py:pyephem_earthsun_distance"], "Calendar model of dates and days of year with real instants; case analysis of types and methods.")
P('C172','Days of year as dates',
  "Converting days of year to a DatetimeIndex gives midnight of that day, element by element, to the nearest microsecond, raises ValueError exactly for NaN and infinities, counts on past the end of the year, and taking days of year again gives the same numbers back for all days of the year, leap or not.",
  "all years, all lists of days of year", INF, ["pvlib/tools.py:_doy_to_datetimeindex","pvlib/tools.py:_pandas_to_doy"], "Calendar arithmetic by induction over months and years.")
P('C173','localize_to_utc keeps or finds instants',
  "localize_to_utc keeps the instants of localized values, whatever zone; a naive datetime becomes the (first) instant at which clocks at the location show it, one in a gap is silently read with the offset in force before; a naive pandas index becomes the unique instants and raises exactly when some reading is shown never or more than once.",
  "all zones (arbitrary offset functions), all instants and readings", INF, ["pvlib/tools.py:localize_to_utc"], "Zones as functions from instants to offsets; case analysis.")
P('C174','calc_time finds the crossing',
  "If the attribute of the sun is on different sides of the value at the two bounds, calc_time returns a UTC time at most the tolerance away from a moment between the bounds at which the attribute crosses the value; it raises ValueError if it is strictly on the same side at both and AttributeError for an unknown attribute; naive bounds are read as UTC and only the instants of the bounds matter.",
  "all bounds, all continuous attributes, all zones, any brentq meeting scipy's documentation", INF, ["pvlib/solarposition.py:calc_time"], "brentq as a function satisfying its documented contract (shown satisfiable); microsecond rounding in datetime conversion.")
P('C175','Location: construction, from_tmy, from_epw',
  "A Location keeps what it is given, looks altitude up only if it is missing, and refuses unacceptable zones whatever else; from_tmy and from_epw give the coordinates, name, altitude and zone of the file for whole-hour zones, refuse fractional ones, and raise for any keyword argument.",
  "all coordinates, zones, metadata dictionaries, keywords", INF, ["pvlib/location.py:Location.__init__","pvlib/location.py:Location.from_tmy","pvlib/location.py:Location.from_epw"], "Case analysis over dictionaries and keyword passing.")
P('C176','Location: solar positions and events are those of its coordinates',
  "Location.get_solarposition equals solarposition.get_solarposition at the coordinates and altitude of the location, with the given or the standard pressure; get_sun_rise_set_transit refuses naive times and unknown methods and otherwise returns what the named method gives at the coordinates.",
  "all locations, times, methods, temperatures, pressures", INF, ["pvlib/location.py:Location.get_solarposition","pvlib/location.py:Location.get_sun_rise_set_transit"], "Unfolding through the models of solarposition; case analysis of names.")
P('C177','Location.get_clearsky: which inputs matter, physical results',
  "A given solar position is used as it is, otherwise it is computed with the pressure keyword; each model takes exactly its keywords (haurwitz ignores all, pressure is ignored by ineichen), others raise; unknown models raise ValueError; with the default model, for every location on Earth and every solar position the result is finite, non-negative, dhi <= ghi and zero at night.",
  "all locations, times, positions, keyword dictionaries", INF, ["pvlib/location.py:Location.get_clearsky"], "Composition of the proved clear-sky models; case analysis over keywords.")
P('C178','fit_sandia recovers the inverter it was given',
  "Noise-free measurements of an inverter that follows the Sandia model, at three voltage levels with three or more DC powers each and AC power rising with DC power up to the rating, give back all parameters; TypeError exactly if a level has no measurement; Paco, Pnt and the mean nominal voltage are passed on. Not so: with zero start power C2 is NaN (and then so is every AC power), and with AC power falling before the rating Pdco is too small.",
  "all parameters and measurements of the kind, any polyfit that is exact on exact data", INF, ["pvlib/inverter.py:fit_sandia","pvlib/inverter.py:sandia"], "Roots of the quadratic by its discriminant; uniqueness of interpolation polynomials shows the polyfit contract satisfiable.")
P('C179','latlon_to_xy: distances between sites',
  "Each site is mapped to the meridian arc (north) and the arc of the parallel of the mean latitude (east); one pair is a list of one; distances between sites do not depend on the order of sites or a common shift in longitude; longitudes are not wrapped at the antimeridian; one NaN latitude makes all eastings NaN; no sites raise ValueError.",
  "all lists of sites", INF, ["pvlib/scaling.py:latlon_to_xy"], "Real arithmetic over lists.")
P('C180','fit_pvefficiency_adr: bounds, options, weights',
  "Unless the caller sets bounds, the fitted ADR parameters lie in their documented physical ranges and carry the names under which pvefficiency_adr takes them; each option given by the caller replaces that option only; ValueError without data or positive efficiency; the start is feasible exactly for a non-negative largest efficiency; measurements are weighted by the root of irradiance and those in the dark do not count.",
  "all data, all options, any curve_fit meeting scipy's documentation", INF, ["pvlib/pvarray.py:fit_pvefficiency_adr"], "Dictionary update lemmas; contract of curve_fit, shown satisfiable.")
P('C181','Solcast requests',
  "Each Solcast function sends one request to its documented address with the key in the Authorization header, the location, format=json, the range of a historic request, and the caller's further keyword arguments unchanged; the outcome depends only on the reply; repeating a parameter raises TypeError without a request. Not so: the key of a historic request is also in the query.",
  "all coordinates, keys, keyword dictionaries, services", INF, ["pvlib/iotools/solcast.py:get_solcast_tmy","pvlib/iotools/solcast.py:get_solcast_historic","pvlib/iotools/solcast.py:get_solcast_forecast","pvlib/iotools/solcast.py:get_solcast_live","pvlib/iotools/solcast.py:_get_solcast"], "Dictionary lemmas; the service is an arbitrary function of the request.")
P('C182','Meteonorm requests',
  "Each Meteonorm function sends one request to its address with the key in the Authorization header, carrying exactly the location, range, translated parameters, surface, horizon, time step and settings given; an error status raises HTTPError, any other reply is parsed. Not so: the albedo given to get_meteonorm_tmy has no effect.",
  "all arguments, all services", INF, ["pvlib/iotools/meteonorm.py:get_meteonorm_forecast_basic","pvlib/iotools/meteonorm.py:get_meteonorm_forecast_precision","pvlib/iotools/meteonorm.py:get_meteonorm_observation_realtime","pvlib/iotools/meteonorm.py:get_meteonorm_observation_training","pvlib/iotools/meteonorm.py:get_meteonorm_tmy","pvlib/iotools/meteonorm.py:_get_meteonorm"], "A specification of the query by parameter name; case analysis over names and functions.")
P('C183','NSRDB requests ask for the right place',
  "Each of the six PSM4 functions asks its own data set for POINT(longitude latitude), in that order, each coordinate in decimal notation within 0.00005 degrees of the one given, with the caller's identity, year, time step, translated variables and switches.",
  "all finite coordinates, all arguments", INF, ["pvlib/iotools/psm4.py:get_nsrdb_psm4_aggregated","pvlib/iotools/psm4.py:get_nsrdb_psm4_tmy","pvlib/iotools/psm4.py:get_nsrdb_psm4_conus","pvlib/iotools/psm4.py:get_nsrdb_psm4_full_disc","pvlib/iotools/psm4.py:get_nsrdb_psm4_polar","pvlib/iotools/psm4.py:get_nsrdb_psm4_polar_tmy"], "Decimal formatting with round half to even, proved against a value function on digit strings.")
P('C184','CAMS requests',
  "get_cams refuses unknown time steps and services with ValueError before any request; otherwise sends one request naming the coordinates, the altitude (or -999), the days, the time reference, the translated step and the escaped mail address, verbose only for one-minute data in universal time; a good reply is read, an error reply raises HTTPError, or IndexError if it has no exception report.",
  "all arguments, all services", INF, ["pvlib/iotools/sodapro.py:get_cams"], "Case analysis; count and substitution lemmas over characters.")
P('C185','PVGIS files: format, metadata, time stamps',
  "An explicit format is used as it is, otherwise the lower-case file extension decides; unknown formats raise ValueError and open files without a format TypeError; renaming columns keeps values and order; the metadata of a JSON file keep everything and put the inputs in the place of their descriptions; every existing moment written as YYYYmmdd:HHMM is read as that moment and all others are refused.",
  "all file names, formats, dictionaries, times", INF, ["pvlib/iotools/pvgis.py:read_pvgis_hourly","pvlib/iotools/pvgis.py:read_pvgis_tmy","pvlib/iotools/pvgis.py:_parse_pvgis_hourly_json","pvlib/iotools/pvgis.py:_parse_pvgis_tmy_json"], "Induction over characters; proleptic calendar model; JSON as an inductive type.")
P('C186','Renamed arguments and deprecated functions still work',
  "A call with the old name of a renamed argument is the call with the new name and one warning; without the old name the call is unchanged and silent; both names raise ValueError. A deprecated function returns what the function it stands for returns, with one warning; a pending deprecation with a scheduled removal is refused, every other message is made and names the alternative.",
  "all functions, arguments, keyword dictionaries, messages", INF, ["pvlib/_deprecation.py:renamed_kwarg_warning","pvlib/_deprecation.py:deprecated","pvlib/_deprecation.py:_generate_deprecation_message"], "Dictionary lemmas over arbitrary functions.")
P('C187','Runs of a ModelChain leave the caller\'s data and earlier results alone',
  "No call of run_model, run_model_from_poa, run_model_from_effective_irradiance or complete_irradiance changes an object that existed before it (weather data, module tables, earlier results); result objects are new and pairwise different; they keep their contents through any later history of runs and of changes by the caller to his own data; the weather of the results is the caller's with the documented defaults; losses, applied in place, are in each array's DC result exactly once.",
  "all stores of objects, all inputs, any numbers of arrays, all histories of calls and changes, whatever is computed", INF, ["pvlib/modelchain.py:ModelChain.run_model","pvlib/modelchain.py:ModelChain.run_model_from_poa","pvlib/modelchain.py:ModelChain.run_model_from_effective_irradiance","pvlib/modelchain.py:ModelChain.complete_irradiance","pvlib/modelchain.py:ModelChain.pvwatts_losses","pvlib/modelchain.py:_copy"], "A store of objects with in-place writes; frame rule by induction over frames and events.")
P('C188','Tables, presets and dictionaries given by the caller are not changed',
  "ModelChain.with_pvwatts and with_sapm use the unchanged module-level defaults under the caller's arguments after any history of constructions; golden-section search, solver options, sky components and MERRA-2 request parameters are copied before they are changed; turbidity interpolation over any sequence of years leaves Python's calendar as it is and gives each year its own month lengths.",
  "all stores, dictionaries, histories", INF, ["pvlib/modelchain.py:ModelChain.with_pvwatts","pvlib/modelchain.py:ModelChain.with_sapm","pvlib/tools.py:_golden_sect_DataFrame","pvlib/singlediode.py:bishop88_i_from_v","pvlib/irradiance.py:poa_components","pvlib/iotools/merra2.py:get_merra2","pvlib/clearsky.py:_calendar_month_middles"], "The same store; induction over histories.")
P('C189','Which parameter dictionaries arrays share',
  "Module and loss parameters that are not given are new for each Array, so changing them in one array changes no other; given ones are kept by reference; a system's array has its own loss dictionary. Not so: temperature parameters inferred from the mounting are the entry of the module-level table itself, so changing them in one array changes every other array with that mounting, also those constructed later.",
  "all stores, tables, arguments, later changes", INF, ["pvlib/pvsystem.py:Array.__init__","pvlib/pvsystem.py:PVSystem.__init__","pvlib/pvsystem.py:Array._infer_temperature_model_params","pvlib/temperature.py:_temperature_model_params"], "Addresses of dictionaries in the store.")
P('C190','Only the bearing between surface and sun matters',
  "aoi_projection and get_total_irradiance give the same results, column for column, when the same angle is added to both azimuths, when whole turns are added to either, and when the scene is mirrored; the projection determines the bearing up to these moves.",
  "all azimuths, all models, all values of the other arguments", INF, ["pvlib/irradiance.py:aoi_projection","pvlib/irradiance.py:get_total_irradiance","pvlib/irradiance.py:get_sky_diffuse"], "Periodicity and evenness of the cosine, pushed through every model; converse from cos a = cos b.")
P('C191','Transposition does not depend on the unit of irradiance',
  "Multiplying dni, ghi, dhi and dni_extra by one positive factor multiplies every column of get_sky_diffuse and get_total_irradiance by that factor and changes no exception, for every sky model.",
  "all positive factors, all inputs including NaN and infinities, all models", INF, ["pvlib/irradiance.py:get_total_irradiance","pvlib/irradiance.py:get_sky_diffuse"], "Homogeneity lemmas over Fl for each model.")
P('C192','Perez is discontinuous, Perez-Driesse is continuous',
  "perez_driesse varies continuously with continuously varying inputs. perez does not: with its default coefficients an arbitrarily small rise of dni lowers the diffuse irradiance by more than 3 W/m2, and the isotropic component can be negative. The names of coefficient sets are exactly the keys of the shipped table; the documented name '1990' raises KeyError.",
  "all continuous inputs; all dni in the two intervals", INF, ["pvlib/irradiance.py:perez","pvlib/irradiance.py:perez_driesse","pvlib/irradiance.py:_get_perez_coefficients","pvlib/irradiance.py:_f"], "Coefficient table generated from the source; continuity of the quadratic spline piece by piece.")
P('C193','Scaling the result of one module is solving the array',
  "For identical modules in strings, the array's five parameters (currents times strings, thermal voltage times modules, resistances times modules/strings) give curves with voltages times modules and currents times strings: i_from_v, v_from_i and batzelis scale so, and singlediode of the array equals scale_voltage_current_power of singlediode of one module.",
  "all sane parameters, all positive numbers of modules and strings, all voltages and currents", INF, ["pvlib/pvsystem.py:singlediode","pvlib/pvsystem.py:i_from_v","pvlib/pvsystem.py:v_from_i","pvlib/pvsystem.py:scale_voltage_current_power","pvlib/singlediode.py:batzelis"], "Invariance of the diode equation under the scaling; uniqueness of its solutions and of the maximum power point.")
P('C194','A module with no worse parameter yields no less',
  "If no parameter is worse (more photocurrent, less saturation current, less series resistance, higher shunt resistance, larger n Ns Vth), the current at each voltage up to open circuit, and short-circuit current, open-circuit voltage and maximum power of singlediode are at least as large.",
  "all pairs of sane parameter sets so ordered", INF, ["pvlib/pvsystem.py:singlediode"], "Comparison of two solutions of the diode equation by contradiction.")
P('C195','Erbs-Driesse: continuous, with continuous slope, within 0.0005 of Erbs',
  "As documented, the diffuse fraction of erbs_driesse differs from that of erbs by less than 0.0005 at every clearness index, and is continuous with continuous slope (up to 2e-14, the rounding of its coefficients); that of erbs is not within 1e-4 of any continuous function.",
  "all clearness indices", INF, ["pvlib/irradiance.py:erbs_driesse","pvlib/irradiance.py:erbs"], "Bernstein coefficients for the polynomial bounds; a C1 extension as an integral of the clamped slope.")
P('C196','More global irradiance never means less direct irradiance',
  "For the same sun position and day, dni from erbs and boland does not fall when ghi rises, and that from erbs_driesse not by more than 1e-14 of ghi/cos(zenith). Not so for orgill_hollands: just below a clearness index of 0.35 dni is larger than at it.",
  "all ghi, all zeniths up to max_zenith in front of the horizon, all thresholds and days", INF, ["pvlib/irradiance.py:erbs","pvlib/irradiance.py:erbs_driesse","pvlib/irradiance.py:boland","pvlib/irradiance.py:orgill_hollands"], "Monotonicity of (1 - diffuse fraction) * clearness index, piece by piece.")
P('C197','Symmetries of the single-axis tracker',
  "singleaxis gives the same rotation, incidence and surface tilt when one angle is added to the azimuths of axis and sun (the surface azimuth turns with them); describing the tracker by the other end of its axis gives the same surface and incidence and the opposite rotation; mirroring the sun on the vertical plane of the axis mirrors the surface. With and without backtracking, with any limits.",
  "all suns above the horizon, all axes, ground coverages, slopes and limits", INF, ["pvlib/tracking.py:singleaxis","pvlib/tracking.py:calc_surface_orientation","pvlib/shading.py:projected_solar_zenith_angle"], "Complex conjugation of the projected sun vector, pushed through backtracking, clipping and orientation.")
P('C198','Long series can be processed in pieces',
  "coverage_nrel started in the middle of a series with the coverage reached there as initial_coverage gives the same values as on the whole series (constant step, or a frequency that cannot be inferred). So does kimber with initial_soiling, if neither the accumulation nor the grace period reaches back over the cut to a rain; and hsu, which has no such argument, right after a cleaning.",
  "all series, all cut points, all parameters", INF, ["pvlib/snow.py:coverage_nrel","pvlib/soiling.py:kimber","pvlib/soiling.py:hsu"], "Recurrences of C07, C11 and C12 shifted to the cut, induction over the rest.")
P('C199','The two hemispheres are mirror images',
  "At the opposite latitude and declination solar_zenith_analytical is the same, solar_azimuth_analytical is mirrored on the east-west line, and sun_rise_set_transit_geometric gives the same times. On the same day the day lengths at opposite latitudes add up to 24 hours.",
  "all latitudes, declinations and hour angles (azimuth: sun off the meridian and the zenith, place off the poles); days with sunrise and sunset", INF, ["pvlib/solarposition.py:solar_zenith_analytical","pvlib/solarposition.py:solar_azimuth_analytical","pvlib/solarposition.py:sun_rise_set_transit_geometric"], "Parity of the trigonometric functions through the clamps of the azimuth formula; arccos(-x) = pi - arccos(x).")
P('C200','Bearings and turned modules in infinite_sheds',
  "infinite_sheds.get_irradiance_poa depends on the azimuths of surface and sun through the bearing between them only. Turning a bifacial module over (tilt 180 - tilt, opposite azimuth, incidence modifiers exchanged) exchanges front and back in every column of get_irradiance.",
  "all azimuths and tilts, all sky models, all values of the other arguments", INF, ["pvlib/bifacial/infinite_sheds.py:get_irradiance_poa","pvlib/bifacial/infinite_sheds.py:get_irradiance","pvlib/bifacial/infinite_sheds.py:_backside"], "Periodicity of the cosine through every term; two turns over are a whole turn.")
P('C201','How strings are grouped into arrays does not matter',
  "Splitting an Array of a ModelChain's system into several with fewer strings each, merging alike Arrays or reordering them changes neither plane-of-array and effective irradiance and cell temperature of any Array nor the AC power: with a PVWatts inverter at every time, missing and infinite values included, with a Sandia inverter wherever the total DC power is a number and either not 0 or below a positive start-up power.",
  "all DC models, loss and ohmic loss models, numbers of arrays and strings, weather and earlier results; run_model", INF, ["pvlib/modelchain.py:ModelChain.run_model","pvlib/pvsystem.py:PVSystem.get_ac","pvlib/inverter.py:sandia_multi","pvlib/inverter.py:pvwatts_multi","pvlib/pvsystem.py:scale_voltage_current_power"], "Per-array results of C95 per string; sums over strings regrouped by fibres in the commutative monoid of floats.")
P('C202','No light, no power',
  "Where dni, ghi and dhi of every Array are zero or missing, get_total_irradiance gives zero or missing values for every model, DC power of a PVWatts ModelChain is zero or missing and its AC power is exactly 0, never NaN. The same holds for run_model_from_poa and run_model_from_effective_irradiance without light on the planes of the arrays.",
  "all transposition, IAM, spectral, temperature and loss models, all mounts, all positions of the sun, all parameters of modules and losses (inverter rating and efficiencies positive)", INF, ["pvlib/irradiance.py:get_total_irradiance","pvlib/pvsystem.py:pvwatts_dc","pvlib/inverter.py:pvwatts","pvlib/modelchain.py:ModelChain.run_model"], "Zero-or-NaN is closed under every operation that follows; carried through the specification of a run (C95).")
P('C203','The rows of a ModelChain run are independent',
  "Every result of an Array and the AC power at a time depend only on that row of the weather frames: whatever the other rows hold, however many there are and wherever the row stands. So a long series can be cut, filtered, reordered or run row by row, with each of the three entry points. (Not with the fuentes temperature model, which has a memory, unless the cell temperature is given.)",
  "all chains, systems and numbers of arrays, all weather, all pairs of runs with a row in common, all earlier results; sites whose solar position at a time depends on that time's data only", INF, ["pvlib/modelchain.py:ModelChain.run_model","pvlib/modelchain.py:ModelChain.run_model_from_poa","pvlib/modelchain.py:ModelChain.run_model_from_effective_irradiance"], "The specification of a run (C95) read row by row.")
P('C204','A tracker that does not turn is a fixed mount',
  "The irradiance on a plane and its angle of incidence depend on the plane's normal only, not on the description (tilt, azimuth) of it. A single-axis tracker whose limits lock it at a rotation reports that rotation and the orientation calc_surface_orientation gives. While the sun is above the horizon, Array.get_irradiance and Array.get_aoi on a tracker locked at 0 are those of the same Array on a FixedMount with the axis's tilt and azimuth, for every transposition model.",
  "all planes, positions of the sun, irradiance, models; all trackers with equal limits, with or without backtracking, all axes (tilt 0 to 180)", INF, ["pvlib/tracking.py:singleaxis","pvlib/pvsystem.py:SingleAxisTrackerMount","pvlib/irradiance.py:get_total_irradiance","pvlib/pvsystem.py:Array.get_irradiance"], "Equal normals give equal angles of incidence (C03's geometry); a clip to one point is constant.")
P('C205','Overcast skies and bright ground',
  "With no direct light and ghi = dhi, the klucher, haydavies and reindl models give the isotropic sky diffuse; if the ground then reflects everything (albedo 1), every plane receives exactly dhi, at every tilt. For every model a change of albedo changes the irradiance by ghi times the change times the part of the ground in view, through the ground-diffuse component only, so that a brighter ground never lowers it. With haydavies, on a plane that faces away from the sun, more direct light at equal ghi and dhi strictly lowers the irradiance.",
  "all planes and positions of the sun, all irradiance values, all models (a: the four named)", INF, ["pvlib/irradiance.py:get_sky_diffuse","pvlib/irradiance.py:get_total_irradiance","pvlib/irradiance.py:get_ground_diffuse","pvlib/irradiance.py:klucher","pvlib/irradiance.py:haydavies","pvlib/irradiance.py:reindl"], "The four formulas at dni = 0, ghi = dhi, including 0/0 handling; algebra on the sum of components.")
P('C206','The example spectral response is the spline through its table',
  "get_example_spectral_response interpolates its 13-point table with the one and only not-a-knot cubic spline through it (existence and uniqueness among all twice continuously differentiable piecewise cubics); at the table's wavelengths it returns the table's values, outside 290-1190 nm exactly 0, NaN for NaN. Strictly inside it is positive; it never exceeds 1.002, but between 950 and 1000 nm it does exceed 1 (at 959 nm, say), and nowhere else. One value per wavelength, in order; by default every 5 nm from 280 to 1200.",
  "all wavelengths (finite, infinite, NaN), all lists of wavelengths, all candidate splines", INF, ["pvlib/spectrum/response.py:get_example_spectral_response"], "Uniqueness by an exact rational certificate for the linear system of the spline; existence by truncated powers; bounds by Bernstein form on each interval.")
P('C207','Tables of the SAM libraries',
  "retrieve_sam's table has one row per column of the file (spaces become underscores) and one column per product, in file order and under the normalised name; the two lines of units and SAM names have no effect; every cell outside the row ADRCoefficients is the file's. A coefficient field with any brackets and spaces around and between numbers becomes the list of those numbers; one word that is not a number (such as '1.33,' in the function's own comment) makes the whole library raise ValueError.",
  "all headers, products and cells, all spacings, every float parser", INF, ["pvlib/pvsystem.py:_parse_raw_sam_df","pvlib/pvsystem.py:retrieve_sam"], "Induction over lines and words.")
P('C208','Readers close what they open, and nothing else',
  "read_epw, read_bsrn and read_panond return what their parser makes of the text they are pointed to: file, compressed file (.gz), URL (http...), open object. Each file they open is closed exactly once whether or not parsing raises; an open file passed by the user is left open. read_panond refuses open files with TypeError. Unlike retrieve_sam they are case-sensitive: a URL in capitals and .GZ are taken for plain files.",
  "all names and objects, all contents, all parsers, returning or raising", INF, ["pvlib/iotools/epw.py:read_epw","pvlib/iotools/bsrn.py:read_bsrn","pvlib/iotools/panond.py:read_panond","pvlib/tools.py:_file_context_manager"], "Case analysis over sources with a trace of events.")
P('C209','Scalars, arrays and keywords of the Newton solver',
  "method='newton' of the single diode functions accepts scalars mixed with arrays of one common shape and then starts with that shape, whichever of the arguments are arrays; two-dimensional broadcasting (3,1) x (1,4), and empty arrays with scalars, raise ValueError. Keywords given by the user win over the defaults tol=1e-6, maxiter=100. get_pandas_index returns the index of the first pandas argument, None exactly if there is none.",
  "all numbers of arguments, shapes and keywords", INF, ["pvlib/singlediode.py:_prepare_newton_inputs","pvlib/singlediode.py:_shape_of_max_size","pvlib/tools.py:get_pandas_index"], "Induction over the arguments.")
P('C210','The tables built into pvlib',
  "The series of the solar position algorithm and of nutation, the spectrum and absorption coefficients of SPECTRL2, the Perez, Perez-Driesse and DIRINT coefficients, albedos, water, temperature and Huld parameters by name, cell types, the names of variables of every weather service, widths and names of the fields of TMY2 and BSRN files are, entry by entry, those of the source.",
  "every entry of every table (finite data that all the other claims about these functions rest on)", INF, ["pvlib/spa.py:L0","pvlib/spa.py:NUTATION_ABCD_ARRAY","pvlib/irradiance.py:_get_dirint_coeffs","pvlib/irradiance.py:_get_perez_coefficients","pvlib/spectrum/spectrl2.py:_SPECTRL2_COEFFS","pvlib/albedo.py:SURFACE_ALBEDOS","pvlib/temperature.py:TEMPERATURE_MODEL_PARAMETERS"], "Double entry: a script reads the Python source again, scales to integers and states equality with the model's tables; evaluated by the kernel.")
P('C211',"Newton's method finds the single diode solution",
  "bishop88_i_from_v and bishop88_v_from_i with method='newton' (the default) converge from their own starting points: for every cell without recombination and every voltage from 0 up, or every current up to the light current, the iteration never divides by zero, after its first step falls monotonically towards the diode voltage of the solution, and with enough steps allowed scipy's stopping rule ends it within a fixed multiple of the tolerance of the one solution. With recombination the same holds if the starting point is not below the solution (voltages: currents not positive; currents: not below the current at the starting point).",
  "all physical cells without breakdown current, all voltages and currents, all tolerances", INF, ["pvlib/singlediode.py:bishop88_i_from_v","pvlib/singlediode.py:bishop88_v_from_i","pvlib/singlediode.py:bishop88","pvlib/singlediode.py:estimate_voc"], "The voltage is convex and increasing, the current concave and decreasing in the diode voltage; Newton's method on a convex increasing function, with the error bounded by the last step.")
P('C212',"The bracket of method='chandrupatla'",
  "As long as estimate_voc is below NsVbi (always so without recombination) method='chandrupatla' searches the interval method='brentq' searches, and finds current, voltage and maximum power point with any bracketing root finder that keeps its promise. If estimate_voc exceeds NsVbi the bracket, unlike that of brentq, contains the pole of the recombination current and a second root beyond it: such a root finder may return a current that does not solve the single diode equation.",
  "all physical cells without breakdown current, all voltages and currents in the bracket, all bracketing root finders; the second part by a concrete module", INF, ["pvlib/singlediode.py:bishop88_i_from_v","pvlib/singlediode.py:bishop88_v_from_i","pvlib/singlediode.py:bishop88_mpp"], "Reduction to C67 and C68; for the pole, the intermediate value theorem between the pole and estimate_voc.")
P('C213',"Longitudes a whole turn apart are one place",
  "Longitudes that differ by whole turns (-105 and 255) give the same results: get_solarposition with 'nrel_numpy', 'nrel_numba' and 'ephemeris', the equation of time, sunrise, sunset and transit of the solar position algorithm, and solar_zenith_analytical; hour_angle differs by exactly the turns. A limit of the code: sun_rise_set_transit_geometric answers with events moved by one day per turn.",
  "all pairs of longitudes k turns apart, all times, time zones, places, conditions and thread counts", INF, ["pvlib/solarposition.py:get_solarposition","pvlib/solarposition.py:ephemeris","pvlib/solarposition.py:sun_rise_set_transit_spa","pvlib/solarposition.py:sun_rise_set_transit_geometric","pvlib/solarposition.py:hour_angle","pvlib/spa.py:solar_position"], "Longitude enters only below a remainder by 360 (or 1, in turns), which does not see whole turns.")
P('C214',"The two sides of a sheet",
  "For a plane and its back (180 - tilt, azimuth + 180): the angles of incidence add up to 180 degrees; with every transposition model direct light falls on one side only, the two sides together receive dni*|cos aoi| and all of ghi*albedo from the ground. Under the isotropic model they together receive exactly dhi, whatever the tilt; under haydavies dhi*(1-AI) plus the circumsolar part times |cos aoi| over the (limited) cosine of the zenith. King's model is not conservative: the two sides receive ghi*(0.012 zenith - 0.04) more than dhi.",
  "all planes with opposite normals, all positions of the sun, irradiance values, albedos (direct and ground parts: all models)", INF, ["pvlib/irradiance.py:get_total_irradiance","pvlib/irradiance.py:isotropic","pvlib/irradiance.py:haydavies","pvlib/irradiance.py:king","pvlib/irradiance.py:get_ground_diffuse","pvlib/irradiance.py:aoi"], "Opposite normals have opposite scalar products with the sun and opposite cosines of tilt; sum the components.")
P('C215',"The night tare of a ModelChain",
  "At a time when no Array has effective irradiance, a ModelChain with the SAPM DC model and a Sandia inverter reports as AC power exactly minus the night tare |Pnt| of the inverter, with any number of Arrays, wiring and losses, by all three entry points, provided every module has C2 > 0 and C3 < 0. If one Array's modules have other signs the AC power of the whole system is NaN at night.",
  "all systems, numbers of arrays, coefficients, cell temperatures above absolute zero, weather and earlier results", INF, ["pvlib/modelchain.py:ModelChain.run_model","pvlib/pvsystem.py:sapm","pvlib/inverter.py:sandia","pvlib/inverter.py:sandia_multi","pvlib/modelchain.py:ModelChain.sandia_inverter"], "The dark SAPM module (C79) carried through scaling, ohmic and system losses of the specification of a run (C95) to the inverter.")
P('C216',"The Sandia preset at night, from the weather",
  "A system of fixed Arrays run with ModelChain.with_sapm through run_model: at a time when dni, ghi and dhi are zero the AC power is exactly minus the night tare |Pnt| of the inverter, wherever the sun is (the air mass may be missing), if every parameter and the other weather columns are finite and the modules have C2 > 0 and C3 < 0. If one Array is on a single-axis tracker the AC power of the whole system is NaN while the apparent zenith is above 90 degrees, whatever the weather, the other Arrays and the other models.",
  "all systems with any number of arrays, all weather, positions of the sun, altitudes and module parameters; the second part for every choice of transposition, incidence, spectral, thermal and loss models", INF, ["pvlib/modelchain.py:ModelChain.run_model","pvlib/modelchain.py:ModelChain.with_sapm","pvlib/tracking.py:singleaxis","pvlib/irradiance.py:haydavies","pvlib/spectrum/mismatch.py:spectral_factor_sapm","pvlib/temperature.py:sapm_cell","pvlib/inverter.py:sandia"], "Zero times a finite number is zero: every factor of the optical chain is shown finite, missing air mass included; then C215. For the tracker the missing orientation is carried through to the inverter.")
P('C217',"More light and cooler cells never give less power (PVWatts chains)",
  "Compare two runs of one ModelChain with the PVWatts DC and inverter models, by any entry points: at a time when every Array has no less effective irradiance and no warmer cells in the second run, every Array's DC power and the AC power of the system are no less there (modules with gamma_pdc <= 0 and no low-light adjustment k, linear temperature factor not negative, DC power at most 30 times the inverter rating). DC power is exactly irradiance/1000 * pdc0 * (1 + gamma_pdc (T - temp_ref)) times series, strings and loss factor; AC power is the PVWatts inverter at the sum over the Arrays.",
  "all systems with any number of arrays, ratings, coefficients, wiring, losses, weather and entry points", INF, ["pvlib/modelchain.py:ModelChain.run_model","pvlib/modelchain.py:ModelChain.run_model_from_effective_irradiance","pvlib/pvsystem.py:pvwatts_dc","pvlib/inverter.py:pvwatts","pvlib/inverter.py:pvwatts_multi"], "Closed form of the reported DC and AC power from the specification of a run (C95), then monotonicity of the inverter curve (C05).")
P('C218',"Transposition has no jumps",
  "If orientation, position of the sun, irradiance, extraterrestrial radiation (never zero) and albedo vary continuously with something (time, say), 0 <= dhi <= ghi and the beam on the horizontal is not more than ghi, then every column of get_total_irradiance with the models isotropic, klucher, haydavies, reindl and king is a number and varies continuously: also when the sun rises above the horizon or the plane, and where the light goes out and klucher and reindl divide by a global irradiance of zero.",
  "all continuous inputs over any topological space, all five models without tables in any letter case", INF, ["pvlib/irradiance.py:get_total_irradiance","pvlib/irradiance.py:klucher","pvlib/irradiance.py:haydavies","pvlib/irradiance.py:reindl","pvlib/irradiance.py:king","pvlib/irradiance.py:isotropic"], "Closed forms with max; the terms divided by the global irradiance are bounded and multiplied by the diffuse irradiance, which vanishes there.")
P('C219',"MIDC files: moments, time zones, columns",
  "read_midc on a file with columns 'DATE (MM/DD/YYYY)' and the time of day gives exactly the moments its rows name (month, day, hour and minute with or without leading zero), in the zone that the name of the time column stands for (PST and CST are UTC-8 and UTC-6), and leaves order and values of all columns, renaming those in variable_map. read_midc_raw_data_from_nrel asks for the site and the two days and does the same for the raw format (year, day of year, HHMM); values stay under their own names however many fields more than the header the lines have, while read_midc on such a file (if it does not raise) puts every value as many columns too far to the left as there are fields too many. The map of no station takes two columns to one name.",
  "all files, rows, dates, times, zones and maps", INF, ["pvlib/iotools/midc.py:read_midc","pvlib/iotools/midc.py:read_midc_raw_data_from_nrel","pvlib/iotools/midc.py:_format_index","pvlib/iotools/midc.py:_format_index_raw","pvlib/iotools/midc.py:MIDC_VARIABLE_MAP"], "Parser of the concatenated date and time inverted on every written form; position arithmetic for the columns.")
P('C220',"pvfactors_timeseries: what is simulated, what is reported",
  "pvfactors_timeseries hands the solar position, irradiance, times, row geometry and reflectivities of the caller to the engine, with one orientation repeated for all times, and reports incident light on front and back and absorbed light on front and back of the observed row at those times. If the solar zeniths are integers the orientation loses its fraction of a degree: orientations that differ only in it give the same result. A sequence of orientations of a wrong length is a ValueError. A negative number of the observed row counts from the end.",
  "all engines, inputs, orientations, numbers of rows and observed rows", INF, ["pvlib/bifacial/pvfactors.py:pvfactors_timeseries"], "The engine of the package pvfactors is a parameter; np.full_like is modelled with the type of its array.")
P('C221',"The sun of the solar position algorithm does not jump",
  "As time passes or the observer moves, the elevation, zenith and direction of the sun reported by the solar position algorithm vary continuously, although the computation reduces angles modulo 360 degrees at several points and adds hundreds of periodic terms; the azimuth does too except where it passes north (360 to 0) or the sun is straight above or below. The apparent (refracted) elevation varies continuously while the sun is above the switch of the refraction and not within 0.2 degrees of the zenith. At every moment the sun is exactly on the horizon somewhere on the equator.",
  "all continuous paths through time, latitude (short of the poles), longitude, height (at most 1000 km) and delta T, within 4000 years of 2000; all pressures, temperatures above -273 C and refractions at the horizon", INF,
  ["pvlib/spa.py:solar_position","pvlib/spa.py:solar_position_numpy","pvlib/solarposition.py:spa_python"],"Continuity of each stage; angles reduced modulo 360 are compared through their sines and cosines; the direction determines elevation and azimuth.")
P('C222',"An error of measured global irradiance is amplified a few times at most",
  "With the sun at the same place, two values of global irradiance g and g' are decomposed into diffuse components (and direct components on the horizontal plane) that differ by at most A |g - g'| + J min(g, g'): for erbs A = 3.25, J = 0.0006; for erbs_driesse A = 3.25, J = 4e-14; for orgill_hollands A = 2.84, J = 0.00015; for boland A = 1 + a_coeff/4, J = 0. So measurement noise does not blow up, and the jumps of the piecewise correlations are that small.",
  "all non-negative global irradiances, zenith angles with the sun above the horizon wherever max_zenith lets it through, days, and options", INF,
  ["pvlib/irradiance.py:erbs","pvlib/irradiance.py:erbs_driesse","pvlib/irradiance.py:orgill_hollands","pvlib/irradiance.py:boland"],"Lipschitz constant of each piece from its derivative, plus the gaps at the joints; clearness index is capped where global irradiance exceeds the extraterrestrial.")
P('C223',"Warmer air and less wind never give more power (PVWatts chains)",
  "Run one ModelChain with the PVWatts DC and inverter models and the SAPM, PVsyst or Faiman thermal model twice by the same entry point, on data that differ only in air temperature and wind speed: at a time when the air is not warmer and the wind not weaker in the second, every Array has the same effective irradiance, its cells are not warmer, and its DC power and the AC power of the system are no less (non-negative light and heat, gamma_pdc <= 0, linear temperature factor not negative, DC power at most 30 times the inverter rating; in runs from weather or plane-of-array irradiance, if the position of the sun is the same: the air temperature enters its refraction).",
  "all systems with any number of arrays, coefficients, wiring, weather, sites and entry points", INF,
  ["pvlib/modelchain.py:ModelChain.run_model","pvlib/modelchain.py:ModelChain.run_model_from_poa","pvlib/modelchain.py:ModelChain.run_model_from_effective_irradiance","pvlib/temperature.py:sapm_cell","pvlib/temperature.py:pvsyst_cell","pvlib/temperature.py:faiman","pvlib/modelchain.py:ModelChain._prep_inputs_solar_pos"],"C51 for the cell temperature, C97 for the light, C217 for the power.")
P('C224',"A hotter module gives less voltage and less power (De Soto, CEC and PVsyst models)",
  "For singlediode of calcparams_desoto, calcparams_cec or calcparams_pvsyst (constant ideality factor) at two cell temperatures in the same light: the open-circuit voltage at the higher temperature is not higher, and the maximum power not larger, whenever at that operating point of the hotter module the junctions are below the band gap and the diode current outweighs the gain in light current by an explicit inequality; if the light current does not grow with temperature (alpha_sc <= 0) it is enough that the light current is below the diode current at the band gap.",
  "all modules with sensible reference values, all irradiances, all pairs of temperatures above absolute zero", INF,
  ["pvlib/pvsystem.py:calcparams_desoto","pvlib/pvsystem.py:calcparams_cec","pvlib/pvsystem.py:calcparams_pvsyst","pvlib/pvsystem.py:singlediode"],"K^3 exp(-b/K)(exp(u/K)-1) grows by at least the factor 1 + (b-u)(1/K'-1/K) (convexity of the exponential); then compare the curves at equal current.")
P('C225',"More ozone, water vapour or aerosol in Bird's clear sky",
  "bird: with more ozone or more precipitable water none of the four results (beam, horizontal beam, global, diffuse) grows; with larger aerosol optical depths beam and horizontal beam do not grow.",
  "all zeniths, air masses up to 29, pressures, aerosols, albedos and pairs of absorber amounts in the range of the model", INF,
  ["pvlib/clearsky.py:bird"],"Monotonicity of each transmittance: power means for ozone and water, sign of the derivative for aerosol.")
P('C226',"Rain, dust, snow and warmth: soiling and snow models are monotone",
  "kimber: with more rain, lower threshold, longer grace and accumulation periods, more wash dates, slower soiling, a lower cap and less soiling at the start the loss is never larger, at any time. hsu: with more rain, lower threshold, longer accumulation, steeper modules, less fine and less coarse dust, slower settling the ratio is never lower; but with settling velocities as by default, more PM2.5 at the same PM10 never lowers it. coverage_nrel: with less snowfall, more irradiance, warmer air, steeper modules, faster sliding, less initial cover the coverage is never larger.",
  "all lengths of series, all pairs of inputs ordered this way, all times", INF,
  ["pvlib/soiling.py:kimber","pvlib/soiling.py:hsu","pvlib/snow.py:coverage_nrel"],"Induction along the recurrences of C07, C11 and C12.")
P('C227',"More light and cooler modules never give less DC power (De Soto and CEC chains)",
  "In every completed run of a chain whose DC model is desoto or cec, without ohmic losses and with a constant losses factor, the maximum power reported for an array is the maximum power of the single diode curve of the module its parameters describe, times modules per string, strings and the losses factor. At equal cell temperature more effective irradiance never gives less power; at equal effective irradiance cooler cells never give less power as long as the relative fall in voltage outweighs the rise in photocurrent.",
  "all systems of such modules, weather series, arrays, times, pairs of runs", INF,
  ["pvlib/modelchain.py:ModelChain.run_model","pvlib/modelchain.py:ModelChain._singlediode","pvlib/pvsystem.py:calcparams_desoto","pvlib/pvsystem.py:calcparams_cec","pvlib/pvsystem.py:scale_voltage_current_power"],
  "Chain specification (C97) composed with the single diode power theorems (C224).")
P('C228',"More DC power never gives less AC power (Sandia and ADR inverters), until the Sandia parabola turns",
  "inverter.sandia at a fixed DC voltage: if the curvature is mild, more DC power never gives less AC power, from night through start-up to the rating; the rating is delivered exactly between the voltage-adjusted rated DC power and the second crossing of the parabola with Paco; beyond that crossing more DC power gives strictly less AC power, below the rating; AC never exceeds DC if the efficiency at light load is at most one. inverter.adr in its voltage window: AC power is DC power less the loss polynomial within the limits; more DC power never gives less AC power as long as one more watt loses less than one watt; AC never exceeds DC where losses are not negative.",
  "all parameter sets satisfying the stated conditions, all voltages, all pairs of DC powers", INF,
  ["pvlib/inverter.py:sandia","pvlib/inverter.py:adr"],"Factorisation of curve minus rating; difference quotients of the parabola.")
P('C229',"Townsend's monthly snow loss: value, and more snow never means less loss",
  "loss_townsend returns for each period the published expression of that period's weather and of the effective snow of it and the period before (cyclically), limited to [0,1]. With more snow in either period, flatter modules, damper or colder air, less light, longer slant heights, lower edges, more strings affected, steeper angle of repose, larger front share the loss is never smaller. The same snow in more falls counts never more; a total without any fall counts nothing, with a fall between half and all of it.",
  "all numbers of periods, all finite inputs with light and air above absolute zero, all ordered pairs of inputs", INF,
  ["pvlib/snow.py:loss_townsend","pvlib/snow.py:_townsend_effective_snow"],"Unfolding to a real formula; monotonicity factor by factor.")
P('C230',"What the wavelet variability model computes",
  "scaling.wvm of a finite signal with time step at most 4096 s: mode i is the difference of the averages over windows of 2^i and 2^(i+1) samples of the signal continued by its mirror image, the last mode the coarsest average; the smoothed signal is the sum of the modes, all but the last divided by the square root of the variability reduction on the time scale 2^i dt. The reduction is N^2/(N + 2 sum exp(-d/(v/2 t))) and never smaller for sites farther apart, slower clouds, shorter times.",
  "all finite signals and lengths, lists of distances, positive cloud speeds and time steps up to 4096 s, samples and modes", INF,
  ["pvlib/scaling.py:wvm","pvlib/scaling.py:_compute_wavelet","pvlib/scaling.py:_compute_vr"],"List sums turned into sums over integer intervals; unfolding.")

P('C231',"Air mass formulas, and that a lower sun means more air mass",
  "get_relative_airmass returns, for each of its eight models and every zenith from 0 to 90 (the two secant models: below 90), the published formula. Seven models grow strictly with zenith up to the horizon: young1994 and simple from 0 on, kasten1966, kastenyoung1989, gueymard1993 and pickering2002 from 0.1 degrees on, gueymard2003 from 1 degree on. youngirvine1967 grows while the secant is at most 16.67 and falls from 16.68 on. The default model gives less than one overhead and still less a thousandth of a degree off. alt2pres, pres2alt, gueymard94_pw and bird_hulstrom80_aod_bb are the published formulas.",
  "all model names in any case, all zeniths (real numbers), all pairs of zeniths, all altitudes below the top of the model atmosphere, non-negative pressures, temperatures above absolute zero", INF,
  ["pvlib/atmosphere.py:get_relative_airmass","pvlib/atmosphere.py:alt2pres","pvlib/atmosphere.py:pres2alt","pvlib/atmosphere.py:gueymard94_pw","pvlib/atmosphere.py:bird_hulstrom80_aod_bb"],"Unfolding; sign of the derivative of the denominators with Jordan's inequality and root bounds; polynomial identities.")

P('C232',"The current-voltage curve is concave; fill factor",
  "Between two voltages the current i_from_v reports lies strictly above the chord, so a module whose voltage ripples between two non-negative values gives on average less power than at the mean voltage. The points singlediode reports in daylight, whichever its method, obey v_oc/2 <= v_mp < v_oc and i_sc/2 <= i_mp < i_sc; the fill factor p_mp/(i_sc v_oc) lies strictly between a quarter and one; i_x exceeds half of i_sc and i_xx half of i_mp.",
  "all modules with positive photo-, saturation current and thermal voltage and non-negative series resistance and shunt conductance, all method names, all pairs of voltages and weights", INF,
  ["pvlib/pvsystem.py:singlediode","pvlib/pvsystem.py:i_from_v","pvlib/singlediode.py:_lambertw","pvlib/singlediode.py:bishop88_mpp"],"Strict convexity of the exponential; comparing the maximum power point with a nearby point on the chord.")

P('C233',"Huld's model with the coefficients it ships",
  "pvarray.huld with a cell type it knows (csi, cis, cdte in any capitalisation) in either version (pvgis5, pvgis6) and a positive nameplate power gives, between 80 and 2000 W/m2 and module temperatures of -40 to 100 degrees, a positive power that grows strictly with irradiance and falls strictly with temperature. In the faintest light (up to 0.1 W/m2, at 25 degrees) the power is negative for every one of the six coefficient sets.",
  "all six shipped coefficient sets, all capitalisations, all positive nameplate powers, all irradiances and temperatures of the ranges (real numbers)", INF,
  ["pvlib/pvarray.py:huld","pvlib/pvarray.py:_infer_k_huld"],"Polynomial inequalities in the logarithm of irradiance and temperature; sign of the derivative; bounds of the logarithm.")

P('C234',"PVsyst modules: more light never gives less power, warmer modules never give more",
  "singlediode of calcparams_pvsyst gives a positive maximum power that grows strictly with irradiance at a given cell temperature, although the shunt resistance falls with irradiance, as long as the dark shunt resistance exceeds the one in strong light at most 1 + exp 2 (8.4) times. A ModelChain with PVsyst modules reports for every array the maximum power of one module at the reported effective irradiance and cell temperature, times the modules in series, the strings and the loss factor; of two runs at the same cell temperature the one with more effective irradiance reports no less DC power; of two runs in the same light the warmer one reports no more, as long as the diodes outweigh the gain in light current.",
  "all PVsyst modules with such shunt resistances, all positive irradiances, all cell temperatures that keep light current and ideality factor positive; all chains with the PVsyst model and no ohmic loss, all runs, arrays and hours (real numbers)", INF,
  ["pvlib/pvsystem.py:calcparams_pvsyst","pvlib/pvsystem.py:singlediode","pvlib/modelchain.py:ModelChain.run_model"],"Derivative of irradiance times shunt resistance; comparison of two I-V curves at the maximum power point of the darker one; the specification of a chain run.")

P('C235',"Chains with Sandia modules: what they report, and more light never gives less",
  "A ModelChain with Sandia (SAPM) modules reports for every array in the light, column by column, the published equations at the reported effective irradiance and cell temperature: currents times the strings, voltages times the modules in series, power times both, all times the factor of the system losses. Of two runs at the same cell temperature the one with more effective irradiance reports no less current, voltage and power, as long as the coefficients let the current and voltage of the maximum power point grow up to the brighter light (which up to one sun follows from the signs of the coefficients for the voltage).",
  "all Sandia modules, all positive effective irradiances, all cell temperatures; all chains with the SAPM and no ohmic loss, all runs, arrays and hours (real numbers)", INF,
  ["pvlib/pvsystem.py:sapm","pvlib/modelchain.py:ModelChain.sapm","pvlib/modelchain.py:ModelChain.run_model"],"Specification of a chain run; the equations; comparison term by term.")

P('C236',"Denser rows",
  "For rows closer together (a larger ground coverage ratio): tracking.singleaxis with backtracking turns further back (on level ground with symmetric limits: to a rotation of no larger size), and without backtracking the ratio is irrelevant; shading.shaded_fraction1d is no smaller, for any rotations of the two rows, axis offset and cross-axis slope, with a sun in front of the slope; from every point of a row less sky and less ground is visible (vf_row_sky_2d, vf_row_ground_2d), and so for the mean over a segment (vf_row_sky_2d_integ); masking_angle at every height, masking_angle_passias and the diffuse loss of sky_diffuse_passias are no smaller; the unshaded fraction of the ground (bifacial.utils) is no larger.",
  "all suns above the horizon, axes, rotations, limits and slopes; all ground coverage ratios (real numbers)", INF,
  ["pvlib/tracking.py:singleaxis","pvlib/shading.py:shaded_fraction1d","pvlib/shading.py:masking_angle","pvlib/shading.py:masking_angle_passias","pvlib/shading.py:sky_diffuse_passias","pvlib/bifacial/utils.py:vf_row_sky_2d","pvlib/bifacial/utils.py:vf_row_ground_2d","pvlib/bifacial/utils.py:vf_row_sky_2d_integ","pvlib/bifacial/utils.py:_unshaded_ground_fraction"],"Monotonicity of the arc cosine, of the cosine of the edge of view in the spacing, of integrals.")

P('C237',"More losses, less power",
  "Two ModelChain runs from the same data, of chains that differ only in their system losses (losses_model and losses_parameters), report for every array the same effective irradiance and cell temperature, and every column of their DC results (power, currents and voltages alike) is what it would be without losses times the product of (1 - loss/100) over the ten kinds of PVWatts losses (those given, else the defaults 2, 3, 0, 2, 2, 0.5, 1.5, 1, 0 and 3), or times one with no_loss. So the chain with no smaller percentages reports no more DC power, current or voltage and, with a PVWatts inverter fed at most 30 times its rating, no more AC power; a kind with 100 percent leaves nothing. Two chains that differ only in their reflection losses (aoi_model, one with no_loss) report the same cell temperature (any model but noct_sam), and the one without reports no less effective irradiance and, with PVWatts modules, no less DC power.",
  "all chains, whatever their models, all entry points, data, arrays and hours; all percentages up to 100 (real numbers)", INF,
  ["pvlib/modelchain.py:ModelChain.pvwatts_losses","pvlib/modelchain.py:ModelChain.no_extra_losses","pvlib/modelchain.py:ModelChain.no_aoi_loss","pvlib/modelchain.py:ModelChain.run_model","pvlib/pvsystem.py:PVSystem.pvwatts_losses","pvlib/pvsystem.py:pvwatts_losses"],"Specification of chain runs; products of factors; monotone inverter.")

P('C238',"Ohmic wiring losses of a chain",
  "dc_ohms_from_percent wires lose, at the rated current of the array, their percentage of its rated power, and at any other current that percentage of (rated voltage times current) times current over rated current; more percent and more current lose more. Two ModelChain runs from the same data, of chains that differ only in their wires (dc_ohmic_model and array_losses_parameters), report for every array the same effective irradiance, cell temperature and all columns of the DC results but p_mp; the powers differ by exactly the difference of what the wires lose, times what the system losses leave. So a larger percentage (or wires instead of dc_ohmic_model no_loss) never gives more DC power, nor, for one array on a Sandia inverter that is not overloaded, more AC power.",
  "all chains, whatever their models, all entry points, data, arrays and hours; all percentages, numbers of modules and strings (real numbers)", INF,
  ["pvlib/modelchain.py:ModelChain.dc_ohmic_model","pvlib/modelchain.py:ModelChain.no_dc_ohmic_loss","pvlib/modelchain.py:ModelChain.run_model","pvlib/pvsystem.py:dc_ohms_from_percent","pvlib/pvsystem.py:dc_ohmic_losses","pvlib/pvsystem.py:Array.dc_ohms_from_percent","pvlib/inverter.py:sandia"],"Specification of chain runs; algebra; monotone inverter.")

P('C239',"How the sky models compare",
  "With the sun above the horizon, some light, diffuse light a part of the global and direct light at most the extraterrestrial, get_sky_diffuse gives for isotropic, haydavies, reindl, klucher and king the published formulas, so that on every plane: klucher gives no less than isotropic and at most four times as much; haydavies gives more than isotropic exactly where the ratio of the beam on the plane to the beam on the horizontal exceeds the part of the sky in view, less where it is smaller, and on a plane facing away from the sun isotropic times (1 - dni/dni_extra); reindl gives no less than haydavies, and the same on the horizontal or without direct light; king gives no less than isotropic from a zenith of 3.34 degrees on and no more up to 3.33. What a model gives more of sky diffuse light it gives more of poa_global; direct and ground-reflected light do not depend on it.",
  "all planes, positions of the sun above the horizon, all irradiance values in those bounds, all albedos (real numbers)", INF,
  ["pvlib/irradiance.py:get_sky_diffuse","pvlib/irradiance.py:isotropic","pvlib/irradiance.py:klucher","pvlib/irradiance.py:haydavies","pvlib/irradiance.py:reindl","pvlib/irradiance.py:king","pvlib/irradiance.py:get_total_irradiance"],"Unfolding; algebra; bounds of sine and scalar product.")

P('C240',"Better ventilated mountings are cooler",
  "An Array that is given no temperature parameters has those of the built-in table that its racking model and module type name. With the sapm model, in any irradiance >= 0, at any air temperature and in wind up to 25 m/s, get_cell_temperature is lowest for open_rack glass_polymer, then open_rack glass_glass, close_mount glass_glass, and highest for insulated_back glass_polymer. With the pvsyst model it is lower for freestanding than for semi_integrated than for insulated mountings (strictly as soon as there is light), whatever the wind, and equals air temperature plus the light absorbed over the loss coefficient.",
  "all arrays with inferred parameters, all weather in those bounds (real numbers)", INF,
  ["pvlib/pvsystem.py:Array.__init__","pvlib/pvsystem.py:Array._infer_temperature_model_params","pvlib/pvsystem.py:Array.get_cell_temperature","pvlib/temperature.py:TEMPERATURE_MODEL_PARAMETERS","pvlib/temperature.py:sapm_cell","pvlib/temperature.py:pvsyst_cell"],"Unfolding; bounds of the exponential.")

P('C241',"Brighter ground under the arrays of a chain",
  "Two run_model calls on the same weather, of chains that differ only in the albedo of their arrays: if the weather has no albedo column, each array's poa_ground_diffuse, poa_diffuse and poa_global rise by ghi times the rise in albedo times (1 - cos tilt) / 2, poa_direct and poa_sky_diffuse, the angle of incidence and the modifiers stay the same, and the effective irradiance rises by that light times the spectral modifier times FD; so over brighter ground no array has less global or effective irradiance, and with cell temperatures from the data no PVWatts array has less DC power. If every frame of the weather has an albedo column, the arrays' own albedo changes no result.",
  "all chains, whatever their models, all weather, arrays (fixed or tracking) and hours; all albedos (real numbers)", INF,
  ["pvlib/modelchain.py:ModelChain.run_model","pvlib/modelchain.py:ModelChain._prep_inputs_albedo","pvlib/modelchain.py:ModelChain.effective_irradiance_model","pvlib/pvsystem.py:PVSystem.get_irradiance","pvlib/pvsystem.py:Array.get_irradiance","pvlib/irradiance.py:get_total_irradiance","pvlib/irradiance.py:get_ground_diffuse"],"Specification of chain runs; linearity in the albedo.")

P('C242',"The course of the sun through the day, and the length of the day",
  "solar_zenith_analytical grows with the distance of the hour angle from noon up to half a turn (strictly off the poles); at midnight it is 180 degrees less |latitude + declination|; the sun is above the horizon at every hour exactly where |latitude + declination| exceeds 90 degrees and at no hour exactly where |latitude - declination| is at least 90 degrees. sun_rise_set_transit_geometric gives a sunrise and a sunset exactly where neither exceeds 90 degrees; the time between them grows with the latitude when the declination is positive, and with the declination at a positive latitude, on any dates, in any zones and at any longitudes; at one place and date the longer day begins earlier and ends later about the same noon; it is longer than twelve hours exactly where latitude and declination have the same sign, shorter where they have opposite signs, twelve hours exactly on the equator or at the equinox.",
  "all latitudes between the poles, all declinations and hour angles, all time zones with one midnight on the date and no change of clocks since, all dates and longitudes (real numbers)", INF,
  ["pvlib/solarposition.py:solar_zenith_analytical","pvlib/solarposition.py:sun_rise_set_transit_geometric"],"Monotonicity of cosine, arc cosine and tangent; intermediate value theorem.")

P('C243',"The course of the declination through the year, and the longest day",
  "declination_cooper69 rises from day -10.25 to day 172.25 and falls from there to day 354.75; on no whole day of any year is it above that of day 172 or below that of day 355, which is the opposite. So the time between the sunrise and sunset that sun_rise_set_transit_geometric gives for it, north of the equator, lengthens from the 21st of December to the 21st of June and shortens for the rest of the year, south of it the other way round; day 172 is the longest of the year north of the equator and day 355 the shortest, south of it the other way round; sunrise and sunset exist on every day up to a latitude of 66.55 degrees. At latitudes from 23.45 degrees on, solar_zenith_analytical at noon falls as the declination rises.",
  "all days (numbers, also fractional and of other years), all latitudes, time zones, dates and longitudes (real numbers)", INF,
  ["pvlib/solarposition.py:declination_cooper69","pvlib/solarposition.py:sun_rise_set_transit_geometric","pvlib/solarposition.py:solar_zenith_analytical"],"Monotonicity of the cosine between its extremes; the cosine at odd multiples of a 1460th of a turn.")

P('C244',"The course of a clear day",
  "ineichen, given the absolute air mass of the same sun (any air-mass model but youngirvine1967, from the zenith on where it is monotone, any pressure), turbidity at least 1 and no Perez enhancement, never gives more global or beam irradiance for a lower sun, down to the nadir. At any place and on any day, with the zenith angle of solar_zenith_analytical, haurwitz (global) and simplified_solis and ineichen (global and beam, ineichen with kastenyoung1989 air mass where the noon sun is at least 0.1 degrees from the zenith) are the same as long before as after noon, greatest at noon and never more the further from noon; haurwitz is positive exactly while the sun is above the horizon.",
  "all latitudes and declinations, all pairs of hour angles up to half a turn, all turbidities at least 1, altitudes from -980 m, pressures, aerosol and water in the published range, extraterrestrial irradiances (real numbers)", INF,
  ["pvlib/clearsky.py:ineichen","pvlib/clearsky.py:haurwitz","pvlib/clearsky.py:simplified_solis","pvlib/atmosphere.py:get_relative_airmass","pvlib/atmosphere.py:get_absolute_airmass","pvlib/solarposition.py:solar_zenith_analytical"],"Composition of the monotonicity of air mass, clear-sky models and zenith.")
