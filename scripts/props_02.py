P('C41','Slope-aware tracker angles are geometrically exact',
  "tracking.calc_axis_tilt returns the tilt that puts the tracker axis in the sloped ground plane; feeding it to calc_cross_axis_tilt returns the rotation at which the tracker is exactly parallel to the ground.",
  "all slopes less steep than vertical, all slope and axis azimuths", INF,
  ["pvlib/tracking.py:calc_axis_tilt","pvlib/tracking.py:calc_cross_axis_tilt","pvlib/tracking.py:_calc_beta_c"], "Vectors; polynomial identities in sines and cosines.")
P('C42','Averaged masking angle is the average masking angle',
  "shading.masking_angle_passias (a closed form) equals the mean of shading.masking_angle over slant heights in [0,1]; at zero tilt, where the formula is singular, it returns the correct value 0.",
  "all tilts in [0,90), all ground coverage ratios in (0,1)", "an integral identity over a continuum",
  ["pvlib/shading.py:masking_angle_passias","pvlib/shading.py:masking_angle"], "Explicit antiderivative; fundamental theorem of calculus.")
P('C43','Liu-Jordan irradiance closes',
  "irradiance.campbell_norman (and the Liu-Jordan formula behind clear-sky transmittance forecasts) returns components with ghi = dhi + dni*cos(zenith), all non-negative, dni at most the extraterrestrial irradiance and ghi at most its horizontal projection; campbell_norman is NaN when the sun is below the horizon.",
  "all zeniths, transmittances in [0,1], non-negative airmass and extra radiation", INF,
  ["pvlib/irradiance.py:campbell_norman","pvlib/irradiance.py:liujordan"], "Case split on the sun above the horizon.")
P('C44','Diffuse PAR fraction is physical',
  "irradiance.diffuse_par_spitters maps every global diffuse fraction in [0,1] to a PAR diffuse fraction in [0,1].",
  "all solar zeniths, diffuse fractions in [0,1]", INF,
  ["pvlib/irradiance.py:diffuse_par_spitters"], "Real algebra.")
