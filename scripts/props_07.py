P('C76','De Soto and CEC module parameters',
  "calcparams_desoto returns the reference parameters at reference irradiance and temperature; light current and shunt conductance are proportional to irradiance (shunt resistance infinite in the dark); the saturation current follows De Soto's equation and grows strictly with temperature; the five parameters always describe a physical cell; calcparams_cec only reduces the temperature coefficient by Adjust percent.",
  "all module parameters, irradiances and temperatures above absolute zero", INF, ["pvlib/pvsystem.py:calcparams_desoto","pvlib/pvsystem.py:calcparams_cec"], "Evaluate into reals; calculus of exp(-E/T).")
P('C77','PVsyst module parameters',
  "calcparams_pvsyst returns the reference parameters at reference conditions (unless the dark shunt resistance is too large, when the shunt is overestimated); the shunt resistance equals R_sh_0 in the dark, is positive, bounded by its limits and falls with irradiance when R_sh_ref <= R_sh_0; the saturation current grows with temperature for constant ideality factor; the parameters describe a physical cell.",
  "all module parameters, irradiances and temperatures", INF, ["pvlib/pvsystem.py:calcparams_pvsyst","pvlib/pvsystem.py:_pvsyst_Rsh"], "Evaluate into reals.")
P('C78','pvsystem.singlediode: all methods agree; power grows with light',
  "pvsystem.singlediode, i_from_v, v_from_i return the same result for every method that returns (lambertw, brentq, newton, chandrupatla); brentq always returns; unknown methods raise NotImplementedError (max_power_point also for lambertw); names are case-insensitive. For a De Soto module in the light the returned maximum power is positive, no point of the curve exceeds it, and it grows strictly with irradiance; in the dark i_sc = v_oc = 0.",
  "all physical cells, all methods, all numerical routines meeting their contracts", INF, ["pvlib/pvsystem.py:singlediode","pvlib/pvsystem.py:i_from_v","pvlib/pvsystem.py:v_from_i","pvlib/pvsystem.py:max_power_point"], "Uniqueness of the solution and of the maximum power point (C67, C71).")
P('C79','Sandia module model',
  "sapm evaluates the published equations for positive irradiance, returns the module's reference values at reference conditions, never a negative voltage, NaN voltages for negative or NaN irradiance, zero currents and v_oc in the dark (v_mp and p_mp zero exactly when C2 > 0 > C3, otherwise p_mp is NaN), i_x / i_xx exactly when the module has their coefficients; v_oc rises with irradiance. sapm_effective_irradiance is F1*(F2*direct + FD*diffuse), non-negative, and zero where air mass is NaN.",
  "all coefficients and operating conditions", INF, ["pvlib/pvsystem.py:sapm","pvlib/pvsystem.py:sapm_effective_irradiance"], "Case analysis including infinities.")
P('C80','scale_voltage_current_power',
  "The result has the same columns in the same order; voltages are scaled by the series number, currents by the parallel number, power by both, so power stays voltage times current; any other column raises KeyError.",
  "all frames of any width, length and column order", INF, ["pvlib/pvsystem.py:scale_voltage_current_power"], "Induction over the columns.")
P('C81','PVWatts DC and losses, ohmic losses',
  "pvwatts_dc is nameplate at reference, zero in the dark, linear in irradiance; with Marion's k the correction is continuous, within [0,k] below 1000 W/m2 and zero at both ends, capped above on request, and power never negative. pvwatts_losses is 100(1-prod(1-p/100)), independent of order, between the largest loss and the sum. The resistance from dc_ohms_from_percent loses exactly that percentage of power at the reference point.",
  "all inputs; any number of losses", INF, ["pvlib/pvsystem.py:pvwatts_dc","pvlib/pvsystem.py:pvwatts_losses","pvlib/pvsystem.py:dc_ohms_from_percent","pvlib/pvsystem.py:dc_ohmic_losses"], "Real arithmetic; induction over the losses.")
P('C82','combine_loss_factors',
  "At every requested time the combined loss is 1 - prod(1 - loss in force), where the loss in force is the most recent entry (ffill), the next (bfill) or the exact one; NaN where some series has none; independent of the order of the series; between the largest loss and one.",
  "all series of any length and any requested index", INF, ["pvlib/pvsystem.py:combine_loss_factors"], "Induction over series.")
P('C83','retrieve_sam and product names',
  "retrieve_sam demands exactly one of name and path, knows five database names in any case and distinguishes URLs from files regardless of case; normalised product names keep their length, contain no special character, are stable under normalisation, and a warning is issued exactly when two names coincide (before or after).",
  "all strings and lists of names", INF, ["pvlib/pvsystem.py:retrieve_sam","pvlib/pvsystem.py:_normalize_sam_product_names"], "Case analysis; induction over lists.")
