P('C65','bishop88 points satisfy the single diode equation',
  "For every diode voltage, singlediode.bishop88 returns (current, voltage, power) that solves I = IL - I0(exp((V+I Rs)/a)-1) - (V+I Rs)/Rsh - recombination - avalanche, with V + I Rs equal to the given diode voltage and power = I*V; conversely every solution is the image of its diode voltage. Beyond the breakdown voltage the result is NaN (even with breakdown_factor=0), and NaN gives NaN.",
  "all diode voltages and all cell parameters", INF, ["pvlib/singlediode.py:bishop88"], "Evaluate the model into reals; compare with a separately stated equation.")
P('C66','bishop88 gradients are the derivatives',
  "With gradients=True the returned dI/dVd, dV/dVd, dI/dV, dP/dV and d2P/dVdVd are the derivatives of the returned current, voltage and power; with a reverse breakdown term they are exactly when its chain-rule factor -1/breakdown_voltage is one (the code omits it).",
  "all parameters and diode voltages inside the domain", INF, ["pvlib/singlediode.py:bishop88"], "HasDerivAt of the returned functions.")
P('C67','i_from_v and v_from_i return the unique solution',
  "For physical parameters (no avalanche) current falls and voltage rises strictly with diode voltage, so the single diode equation has at most one current per voltage and one voltage per current; whatever method is used, bishop88_i_from_v / bishop88_v_from_i return that one whenever the root finder returns a root; with brentq (a bracketing root finder) they do return it for every voltage in [0, Voc] and current in [0, Isc]. Unknown methods raise; method names are case-insensitive.",
  "all physical parameters, voltages, currents, methods, and every root finder meeting its contract", INF,
  ["pvlib/singlediode.py:bishop88_i_from_v","pvlib/singlediode.py:bishop88_v_from_i","pvlib/singlediode.py:estimate_voc"],
  "Monotonicity, intermediate value theorem; root finder as a parameter.")
P('C68','bishop88_mpp is the maximum power point',
  "For physical parameters (no avalanche) the point returned by bishop88_mpp lies on the curve and no point of the curve delivers more power; the bracket passed to brentq contains it.",
  "all physical parameters, all curve points, every root finder meeting its contract", INF,
  ["pvlib/singlediode.py:bishop88_mpp"], "dP/dV strictly decreasing where voltage is non-negative; calculus.")
P('C69','Lambert W solutions solve the single diode equation and invert each other',
  "With an exact Lambert W, i_from_v and v_from_i by the lambertw method return, for every voltage / current, the unique solution of the single diode equation (series resistance zero or positive, any shunt including infinite; whether or not the intermediate exponential overflows in v_from_i); they are inverse to each other and agree with the Bishop methods. Without shunt the voltage is finite exactly when a solution exists. Negative or NaN series resistance or conductance gives NaN.",
  "all physical parameters, voltages and currents, every overflow threshold", INF,
  ["pvlib/singlediode.py:_lambertw_i_from_v","pvlib/singlediode.py:_lambertw_v_from_i"], "Algebra with w e^w = x; uniqueness from C67.")
P('C70','accuracy of pvlib\'s own Lambert W',
  "For every finite x >= 0, pvlib's Lambert W approximation is not above the exact value w (w e^w = x) and below it by at most 2e-11 relative; for log-arguments >= 4.5 the logarithmic routine is within 1e-12; so the current from i_from_v is within 2e-11 of the diode-path term of the exact solution. NaN and arguments below -1 give NaN.",
  "all arguments", INF, ["pvlib/ivtools/utils.py:_lambertw_pvlib","pvlib/ivtools/utils.py:_log_lambertw"],
  "Error recurrences: Newton from below is quadratic, Halley cubic, with bounds uniform in the argument.")
P('C71','the characteristic points of a single-diode curve (method lambertw)',
  "For positive light current the returned i_sc, v_oc, (i_mp, v_mp), i_x, i_xx all lie on the curve of the single diode equation (i_x at half v_oc, i_xx midway between v_mp and v_oc), p_mp = v_mp*i_mp is the maximum of power over the whole curve, and 0 < v_mp < v_oc, 0 < i_xx < i_mp < i_sc <= IL; the optional curve has the requested number of points from (i_sc, 0) to (0, v_oc) with strictly rising voltage and falling current. In the dark i_sc = v_oc = 0.",
  "all physical parameters, all numbers of points; every minimiser correct on unimodal functions", INF,
  ["pvlib/singlediode.py:_lambertw"], "The curve is concave (joint convexity of the equation), so power is unimodal.")
P('C72','singlediode.batzelis points',
  "For positive light current the Batzelis (i_mp, v_mp) lies on the diode curve without the -1 term, and is its exact maximum when there are no series and shunt losses (light current at least the saturation current); i_sc solves the equation without diode current and lies in (0, IL]; v_oc solves it without shunt and -1. For zero, negative or NaN light current every output is zero.",
  "all parameters", INF, ["pvlib/singlediode.py:batzelis"], "Algebra with w e^w = e IL/I0 and the tangent bound of exp.")
P('C73','spectral mismatch from measured spectra',
  "calc_spectral_mismatch_field returns the ratio of usable fractions (trapezoid integral of response x spectrum over that of the spectrum) of the measured and the reference spectrum, with the response interpolated linearly and zero outside its range; it is one for the reference itself, independent of the level of spectra and response, one for a flat response, and between the extremes of the response ratio; without reference, the standard spectrum resampled to the measured wavelengths is used.",
  "all tabulated spectra and responses, of any length", INF, ["pvlib/spectrum/mismatch.py:calc_spectral_mismatch_field","pvlib/spectrum/irradiance.py:get_reference_spectra"],
  "Induction over the tables; comparison with a real-valued integral and interpolant.")
P('C74','spectral factor models',
  "firstsolar, sapm, caballero, pvspec, jrc and polo spectral factors: which argument combinations are accepted and the error otherwise; First Solar's clamping and NaN rule; the SAPM factor is never negative or NaN; values at the models' reference conditions; module names case-insensitive (First Solar, PVSPEC, JRC) or case-sensitive (Caballero, Polo).",
  "all inputs and coefficients", INF, ["pvlib/spectrum/mismatch.py:spectral_factor_firstsolar","pvlib/spectrum/mismatch.py:spectral_factor_sapm","pvlib/spectrum/mismatch.py:spectral_factor_caballero","pvlib/spectrum/mismatch.py:spectral_factor_pvspec","pvlib/spectrum/mismatch.py:spectral_factor_jrc","pvlib/spectrum/mismatch.py:spectral_factor_polo"],
  "Evaluate into reals.")
P('C75','spectral response and photon energy',
  "qe_to_sr and sr_to_qe are inverse to each other (unnormalised); normalisation makes the largest magnitude exactly one; the average photon energy lies between the photon energies of the longest and shortest wavelength, is independent of level, and a negative irradiance raises ValueError.",
  "all tables", INF, ["pvlib/spectrum/response.py:qe_to_sr","pvlib/spectrum/response.py:sr_to_qe","pvlib/spectrum/irradiance.py:average_photon_energy","pvlib/tools.py:normalize_max2one"], "Induction over tables.")
