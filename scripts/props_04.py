P('C51','Steady-state cell temperature models',
  "sapm_cell, pvsyst_cell and faiman return the air temperature when there is no irradiance, and otherwise air temperature plus irradiance times a positive thermal resistance that depends on the wind only and does not grow with it; NaN inputs give NaN; sapm_cell is the module temperature plus deltaT at the reference irradiance.",
  "all irradiances, temperatures, wind speeds and physically signed coefficients; all NaN positions", INF,
  ["pvlib/temperature.py:sapm_cell","pvlib/temperature.py:sapm_module","pvlib/temperature.py:sapm_cell_from_module","pvlib/temperature.py:pvsyst_cell","pvlib/temperature.py:faiman"], "Exhibit the resistance; monotonicity of exp and of 1/x.")
P('C52','faiman_rad closes its heat balance; ross takes exactly one parameter',
  "faiman_rad without ir_down is faiman; with it the returned temperature satisfies the radiative balance, a colder sky never warms the module. ross raises ValueError unless exactly one of noct and k is given, both forms agree, and at 800 W/m2 and 20 C the cell is at NOCT.",
  "all inputs; all combinations of missing arguments", INF,
  ["pvlib/temperature.py:faiman_rad","pvlib/temperature.py:ross"], "Field algebra; case analysis.")
P('C53','noct_sam: array height contract, standoff table, NOCT conditions',
  "noct_sam accepts array_height 1 or 2 only; the standoff adjustment is the documented table for every real standoff; at NOCT test conditions it returns NOCT; the excess over air temperature is proportional to irradiance, and never grows with wind, efficiency or array height; effective_irradiance = poa_global changes nothing.",
  "all inputs", INF, ["pvlib/temperature.py:noct_sam","pvlib/temperature.py:_adj_for_mounting_standoff"], "Case analysis, monotonicity of products.")
P('C54','GenericLinearModel: every history of use_* calls behaves like the source model',
  "After any sequence of method calls, the object's efficiency and absorptance are the last ones given; after use_faiman / use_pvsyst / use_noct_sam, calling the object equals calling that model (use_sapm: at the two fit wind speeds) and the matching to_* returns the coefficients; to_* conversions reproduce the object from any state.",
  "all histories of method calls, all coefficients and inputs", "Unit tests replay a few call sequences; the property ranges over all histories.",
  ["pvlib/temperature.py:GenericLinearModel","pvlib/temperature.py:generic_linear"], "State machine; induction over the operation list, field algebra.")
P('C55','prilliman is an exponentially weighted average of the preceding 20 minutes',
  "temperature.prilliman returns the first sample and coarse (>= 20 min) series unchanged; every other sample is the exp(-P age)-weighted average of the valid values strictly before it in the window, NaN if there is none or the wind is NaN; it lies between the window's extremes, leaves constants unchanged, and never depends on the current or later samples. Irregular indexes raise NotImplementedError; an interval of whole days raises ZeroDivisionError.",
  "all series lengths, sampling intervals, NaN patterns, coefficients", INF,
  ["pvlib/temperature.py:prilliman","pvlib/tools.py:_get_sample_intervals"], "Model the Hankel windowing on positions; re-index to lags; convexity.")
P('C56','fuentes: each step is bracketed by previous module, air and sky temperature',
  "temperature.fuentes returns numbers for physical inputs; each sample is at least the lowest of the previous module temperature, air and sky temperature, and without irradiance at most the highest of them; hence whole-series bounds.",
  "all series lengths and weather with non-negative irradiance and wind, all physical parameters", INF,
  ["pvlib/temperature.py:fuentes","pvlib/temperature.py:_fuentes_hconv","pvlib/temperature.py:_hydraulic_diameter"], "Write the exponential update as a convex combination plus a non-negative solar term; induct over the 10 inner iterations and over samples.")
