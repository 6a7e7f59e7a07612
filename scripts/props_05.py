P('C57','perez evaluates the published equation with the published clearness bins',
  "For positive dhi, non-negative dni and finite angles, irradiance.perez returns max(0, dhi[(1-F1)(1+cos tilt)/2 + F1 a/b + F2 sin tilt]) with F1, F2 read from the coefficient row whose clearness interval (closed below, open above; edges 0, 1.065, 1.23, 1.5, 1.95, 2.8, 4.5, 6.2) contains the sky clearness.",
  "all coefficient tables, angles, irradiances and airmasses", INF,
  ["pvlib/irradiance.py:perez"], "Case split over the bins against a separate edge list; evaluate the rest by ring normalisation.")
P('C58','ashrae, martin_ruiz, schlick and sapm incidence angle modifiers',
  "iam.ashrae (b>=0), iam.martin_ruiz (a_r>0) and iam.schlick return, for every angle of incidence from -180 to 180 degrees, a number in [0,1] that is one at normal incidence, zero from 90 degrees on, even, and non-increasing in the size of the angle; NaN gives NaN; martin_ruiz raises ValueError exactly for a_r<=0; iam.sapm is the fifth-degree polynomial floored at zero (and capped at `upper`), zero outside [0,90].",
  "all angles and coefficients", INF,
  ["pvlib/iam.py:ashrae","pvlib/iam.py:martin_ruiz","pvlib/iam.py:schlick","pvlib/iam.py:sapm"], "Write each as a monotone function of max(0, cos aoi).")
P('C59','physical (Fresnel) incidence angle modifier',
  "iam.physical is an incidence angle modifier (range [0,1], one at normal incidence, zero from 90 degrees, even, non-increasing) for every refractive index 1<n<=2+sqrt 3 and non-negative K, L; with an anti-reflective coating it stays non-negative, one at normal incidence and zero behind; a coating indistinguishable from air or from the glass changes nothing.",
  "all angles, all refractive indices and glazing parameters in the stated ranges", INF,
  ["pvlib/iam.py:physical"], "Reduce Fresnel transmittances to explicit real functions of the cosine and prove monotonicity and the bound.")
P('C60','martin_ruiz_diffuse factors',
  "iam.martin_ruiz_diffuse returns a sky and a ground factor, numbers in [0,1) for tilts in [0,180], the default c2 being 0.5*a_r-0.154, and turning the module upside down exchanges the two.",
  "all tilts, a_r, c1, c2 in the stated ranges", INF, ["pvlib/iam.py:martin_ruiz_diffuse"], "Bound the exponent; symmetry of sine and cosine.")
P('C61','interp reproduces its measured points and respects the accepted methods',
  "iam.interp raises ValueError exactly for fewer points than the method needs, a negative reference value or an unknown method. With the linear method and references starting at angle 0 it is one at normal incidence (normalised), even in aoi, equals the normalised reference value at every reference angle, and up to the last reference angle lies between zero and the largest normalised reference value.",
  "all tables of measured points and all angles", INF, ["pvlib/iam.py:interp"], "Induction over the table of points.")
P('C62','Marion diffuse integration is a weighted average of the given modifier',
  "iam.marion_integrate accepts exactly the regions sky, horizon, ground with their default or given number of points; the result for a modifier with values in [m,M] is in [m,M] (or zero/NaN where the region is not visible); ground seen from a horizontal module is zero; sky and ground exchange under turning the module over; NaN gives NaN. marion_diffuse returns the three regions for a known model name and raises ValueError otherwise.",
  "all modifier functions, tilts, and discretisations", INF, ["pvlib/iam.py:marion_integrate","pvlib/iam.py:marion_diffuse"], "Weighted sums over lists with non-negative weights; reindexing.")
P('C63','schlick_diffuse factors conserve the hemisphere average',
  "The sky and ground factors of iam.schlick_diffuse, weighted by the sky and ground view factors, average to 20/21 - the exact hemispherical average of the Schlick factor - at every tilt, exchange when the module is turned over, and are (20/21, 0) at tilt zero.",
  "all tilts", INF, ["pvlib/iam.py:schlick_diffuse"], "Algebraic identity; interval integral of a polynomial.")
P('C64','iam.convert and iam.fit: accepted calls, bounds, misfit and recovery',
  "convert and fit raise NotImplementedError for unknown models, ValueError for parameter names that are not exactly those of the source model, RuntimeError when the optimiser fails; otherwise they return exactly the named parameters of the target model within the search bounds (K=4 for physical, L<n in either search order, n = sine of the ashrae zero when fix_n); the misfit ignores samples outside [0,90] degrees, is non-negative, and vanishes exactly when the curves agree at the weighted angles; exact ashrae data returns the exact b.",
  "all sources, targets, parameter mappings, samples, weights; every optimiser that respects its bounds", INF,
  ["pvlib/iam.py:convert","pvlib/iam.py:fit","pvlib/iam.py:_residual","pvlib/iam.py:_process_return","pvlib/iam.py:_ashrae_to_physical","pvlib/iam.py:_martin_ruiz_to_physical"], "Optimiser as a parameter with a stated contract; case analysis; sums of non-negative terms.")
