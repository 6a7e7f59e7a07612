F='Model/PvFunctions.lean'; P='Model/PvSystem.lean'; H='Model/Shading.lean'; B='Model/Bifacial.lean'; S='Model/SnowSoiling.lean'; V='Model/PvArray.lean'; W='Model/Scaling.lean'
MUTS=[
('m841',P,'pvsystOf','"R_sh_0", "R_sh_exp", "R_s", "alpha_sc", "EgRef",\n      "irrad_ref"','"R_sh_0", "R_s", "alpha_sc", "EgRef",\n      "irrad_ref"','R_sh_exp of the module not passed on','module models read their parameters'),
('m842',P,'pvsystOf','(kwReq kw ["alpha_sc", "gamma_ref", "mu_gamma", "I_L_ref", "I_o_ref", "R_sh_ref", "R_sh_0", "R_s"','(kwReq kw ["alpha_sc", "gamma_ref", "mu_gamma", "I_L_ref", "I_o_ref", "R_sh_0", "R_sh_ref", "R_s"','shunt resistances swapped','module models read their parameters'),
('m843',P,'pvsystOf','"EgRef",\n      "irrad_ref", "temp_ref"','"EgRef",\n      "temp_ref"','irrad_ref of the module not passed on','module models read their parameters'),
('m844',P,'desotoOf','"dEgdT", "irrad_ref", "temp_ref"]\n    a.module_parameters).bind fun kw => (kwReq kw ["alpha_sc", "a_ref", "I_L_ref", "I_o_ref", "R_sh_ref", "R_s"])','"dEgdT", "irrad_ref"]\n    a.module_parameters).bind fun kw => (kwReq kw ["alpha_sc", "a_ref", "I_L_ref", "I_o_ref", "R_sh_ref", "R_s"])','temp_ref of the module not passed on','module models read their parameters'),
('m845',P,'cecOf','["alpha_sc", "a_ref", "I_L_ref", "I_o_ref", "R_sh_ref", "R_s", "Adjust"]','["alpha_sc", "a_ref", "I_L_ref", "I_o_ref", "R_s", "R_sh_ref", "Adjust"]','series and shunt resistance swapped','module models read their parameters'),
('m846',P,'sapmOf','["Bvmpo", "Mbvmp", "Bvoco", "Mbvoc", "N"','["Bvoco", "Mbvmp", "Bvmpo", "Mbvoc", "N"','temperature coefficients swapped','module models read their parameters'),
('m847',P,'sapmOf','g "IXO", g "C4", g "C5", g "IXXO", g "C6", g "C7"','g "IXO", g "C5", g "C4", g "IXXO", g "C6", g "C7"','C4 and C5 swapped','module models read their parameters'),
('m848',P,'sapmSpectralOf','["A4", "A3", "A2", "A1", "A0"]).bind fun\n    | [A4, A3, A2, A1, A0] => .ok (Spectrum','["A0", "A1", "A2", "A3", "A4"]).bind fun\n    | [A4, A3, A2, A1, A0] => .ok (Spectrum','coefficients read in reverse','module models read their parameters'),
('m849',V,'inferKHuld','if pyLower k_version = "pvgis5" then pick huldPvgis5','if pyLower k_version = "pvgis5" then pick huldPvgis6','newer coefficients for the older version','Huld coefficients'),
('m850',H,'backtrackTheta','-sign omega_ideal * arccos','sign omega_ideal * arccos','correction away from horizontal','backtracking (C16)'),
('m851',H,'backtrackTheta','cosd (omega_ideal - cross_axis_tilt)','cosd (omega_ideal + cross_axis_tilt)','slope with the wrong sign','backtracking (C16)'),
('m852',H,'backtrackTheta','1 / (gcr * cosd cross_axis_tilt)','1 / gcr','slope left out of the distance','backtracking (C16)'),
('m853',H,'tAsterisk','sign projected_solar_zenith * surface_to_axis_offset','surface_to_axis_offset','sign of the offset lost','shaded fraction geometry'),
('m854',H,'tAsterisk','(sind thetas_2_S_diff - sind thetas_1_S_diff)','(sind thetas_1_S_diff - sind thetas_2_S_diff)','offset terms swapped','shaded fraction geometry'),
('m855',H,'maskingAngle','1 - gcr * (1 - slant_height) * cosd surface_tilt','1 - gcr * slant_height * cosd surface_tilt','distance from the wrong edge','masking angle (C31)'),
('m856',H,'calcBetaC','v.1 * cosd dg - v.2.1 * sind dg','v.1 * cosd dg + v.2.1 * sind dg','sign','slope-aware tracker (C41)'),
('m857',B,'unshadedGround','0.5 * Lcostheta + (height + 0.5 * Lsintheta) * tanphi\n    let dp','0.5 * Lcostheta + (height - 0.5 * Lsintheta) * tanphi\n    let dp','shadow of the wrong edge','sunlit ground (C125)'),
('m858',B,'unshadedGroundFraction','max_rows max_zenith g0 g1\n  else','max_rows max_zenith g1 g0\n  else','segment ends swapped','sunlit ground (C125)'),
('m859',B,'shadowPart','npwhere (a < dp\' ∧ dp\' ≤ b ∧ b ≤ cp\') ((b - dp\') / (b - a)) fs','fs','case of a shadow beyond the far end lost','sunlit ground (C125)'),
('m860',S,'townsendEffectiveSnow','maximum snow_events 1','snow_events','no floor under the number of events','Townsend (C229)'),
('m861',S,'roll1','(i + n - 1) % n','(i + 1) % n','next month for previous month','Townsend (C229)'),
('m862',S,'lossTownsend','1 / 3 * effective_snow_prev + 2 / 3 * effective_snow','2 / 3 * effective_snow_prev + 1 / 3 * effective_snow','weights swapped','Townsend (C229)'),
('m863',S,'lossTownsend','lower_edge_height_inches ^ 2 - effective_snow_weighted ^ 2','lower_edge_height_inches ^ 2 - effective_snow ^ 2','snow of this month only','Townsend (C229)'),
('m864',W,'wavelet','csiMean n vals i (n + j) - csiMean n vals (i + 1) (n + j)','csiMean n vals (i + 1) (n + j) - csiMean n vals i (n + j)','sign','wavelet (C36)'),
('m865',W,'smoothed','List.range M','List.range (M - 1)','coarsest scale left out','wavelet (C36, C230)'),
('m866',W,'computeVr','2 * Fl.sum rho + n_dist','Fl.sum rho + n_dist','pairs counted once','variability reduction (C230)'),
('m867',F,'sapm','v_mp := maximum 0 (m.Vmpo','v_mp := maximum 0 (m.Voco','open-circuit for maximum-power voltage','Sandia module (C79)'),
('m868',F,'logEe','if eqv Ee 0 then ninf else l','l','no light gives NaN','Sandia module in the dark'),
('m869',F,'combineLossFactors','acc * (1 - reindexAt fill loss t)','acc - reindexAt fill loss t','losses added, not compounded','combine_loss_factors (C82)'),
('m870',F,'maxPowerPoint','d2mutau := d2mutau, NsVbi := NsVbi','d2mutau := d2mutau','built-in voltage not passed on','recombination models'),
('m871',F,'reindexAt','decide (p.1 ≤ t)','decide (p.1 < t)','the entry at the time itself is not used','combine_loss_factors (C82)'),
]
