P('C45','Relative humidity and dew point are inverse to each other',
  "atmosphere.tdew_from_rh undoes rh_from_tdew and vice versa, for the same Magnus coefficients; humidity is 100 % exactly when the dew point equals the air temperature and below 100 % exactly when it is lower.",
  "all air temperatures and dew points above the pole of the Magnus formula, all humidities in (0,100], all coefficient triples", INF,
  ["pvlib/atmosphere.py:rh_from_tdew","pvlib/atmosphere.py:tdew_from_rh"], "Finite reduction of both functions to exp/log of the Magnus exponent; field arithmetic.")
P('C46','Wind-speed power law',
  "atmosphere.windspeed_powerlaw demands exactly one of exponent and surface_type, is the identity at the reference height, composes through intermediate heights, grows with height for a positive exponent and never returns a negative speed.",
  "all speeds, heights, exponents, surface names and combinations of missing arguments", INF,
  ["pvlib/atmosphere.py:windspeed_powerlaw"], "Case analysis on the arguments; laws of real powers.")
P('C47','Angstrom turbidity fit and extrapolation are inverse',
  "atmosphere.angstrom_aod_at_lambda with the exponent from angstrom_alpha reproduces both measured optical depths; the exponent does not depend on the order of the measurements; extrapolation composes through intermediate wavelengths.",
  "all positive optical depths and distinct positive wavelengths", INF,
  ["pvlib/atmosphere.py:angstrom_alpha","pvlib/atmosphere.py:angstrom_aod_at_lambda"], "exp/log algebra.")
P('C48','Relative airmass: accepted models, night, positivity',
  "atmosphere.get_relative_airmass accepts exactly the eight documented models in any letter case, returns NaN below the horizon for each of them, and a positive finite number at and above the horizon for six of them; 'simple' is sec(z); 'youngirvine1967' turns negative near the horizon.",
  "all model strings, all zeniths including NaN and infinities", INF,
  ["pvlib/atmosphere.py:get_relative_airmass","pvlib/atmosphere.py:get_absolute_airmass"], "One lemma per formula.")
P('C49','Location.get_airmass uses the zenith each model is defined for',
  "Location.get_airmass evaluates apparent-zenith models on apparent_zenith and true-zenith models on zenith, scales by the pressure at the site altitude, and raises ValueError for any other name (including gueymard2003, which get_relative_airmass accepts).",
  "all model strings, altitudes and solar positions", INF,
  ["pvlib/location.py:Location.get_airmass","pvlib/atmosphere.py:APPARENT_ZENITH_MODELS"], "Case analysis on the name.")
P('C50','Pressure, altitude, precipitable water and Linke turbidity are monotone',
  "alt2pres is positive and strictly decreasing, pres2alt strictly decreasing, gueymard94_pw is at least 0.1 and non-decreasing in humidity, kasten96_lt equals its closed form and increases with aerosol and water.",
  "all altitudes below the top of the model atmosphere, all pressures, temperatures, humidities, airmasses", INF,
  ["pvlib/atmosphere.py:alt2pres","pvlib/atmosphere.py:pres2alt","pvlib/atmosphere.py:gueymard94_pw","pvlib/atmosphere.py:kasten96_lt"], "Monotonicity of real powers and exp.")
