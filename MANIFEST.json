{
 "claims": [
  {
   "property": "C01",
   "status": "proved",
   "theorems": [
    "Pvlib.Props.Inverter.sandia_le_Paco",
    "Pvlib.Props.Inverter.sandia_night",
    "Pvlib.Props.Inverter.sandia_operating",
    "Pvlib.Props.Inverter.sandia_nan"
   ],
   "note": ""
  },
  {
   "property": "C02",
   "status": "proved",
   "theorems": [
    "Pvlib.Props.Inverter.sandia_rated",
    "Pvlib.Props.Inverter.sandia_startup"
   ],
   "note": ""
  },
  {
   "property": "C03",
   "status": "proved",
   "theorems": [
    "Pvlib.Props.Inverter.sandiaMulti_error_iff",
    "Pvlib.Props.Inverter.sandiaMulti_error",
    "Pvlib.Props.Inverter.sandiaMulti_perm",
    "Pvlib.Props.Inverter.sandiaMulti_value",
    "Pvlib.Props.Inverter.sandiaMulti_same_voltage",
    "Pvlib.Props.Inverter.sandiaMulti_dark"
   ],
   "note": ""
  },
  {
   "property": "C04",
   "status": "proved",
   "theorems": [
    "Pvlib.Props.Inverter.adr_range",
    "Pvlib.Props.Inverter.adr_out_of_window",
    "Pvlib.Props.Inverter.adr_night",
    "Pvlib.Props.Inverter.adr_operating"
   ],
   "note": ""
  },
  {
   "property": "C05",
   "status": "proved",
   "theorems": [
    "Pvlib.Props.Inverter.pvwatts_value",
    "Pvlib.Props.Inverter.pvwatts_zero",
    "Pvlib.Props.Inverter.pvwatts_range",
    "Pvlib.Props.Inverter.pvwatts_le_dc",
    "Pvlib.Props.Inverter.pvwatts_mono",
    "Pvlib.Props.Inverter.pvwatts_not_mono_everywhere",
    "Pvlib.Props.Inverter.pvwattsMulti_perm",
    "Pvlib.Props.Inverter.pvwattsMulti_eq"
   ],
   "note": ""
  },
  {
   "property": "C06",
   "status": "proved",
   "theorems": [
    "Pvlib.Props.Inverter.transformer_balance",
    "Pvlib.Props.Inverter.transformer_le_input",
    "Pvlib.Props.Inverter.transformer_strictMono",
    "Pvlib.Props.Inverter.transformer_nan"
   ],
   "note": ""
  },
  {
   "property": "C07",
   "status": "proved",
   "theorems": [
    "Pvlib.Props.Snow.fullyCovered_iff",
    "Pvlib.Props.Snow.coverage_recurrence"
   ],
   "note": ""
  },
  {
   "property": "C08",
   "status": "proved",
   "theorems": [
    "Pvlib.Props.Snow.coverage_range",
    "Pvlib.Props.Snow.coverage_range'",
    "Pvlib.Props.Snow.coverage_new_snow",
    "Pvlib.Props.Snow.coverage_decreases",
    "Pvlib.Props.Snow.coverage_bare_ground"
   ],
   "note": ""
  },
  {
   "property": "C09",
   "status": "proved",
   "theorems": [
    "Pvlib.Props.Snow.dcLoss_spec",
    "Pvlib.Props.Snow.dcLoss_mono"
   ],
   "note": ""
  },
  {
   "property": "C10",
   "status": "proved",
   "theorems": [
    "Pvlib.Props.Snow.townsend_range",
    "Pvlib.Props.Snow.townsend_no_snow"
   ],
   "note": ""
  },
  {
   "property": "C11",
   "status": "proved",
   "theorems": [
    "Pvlib.Props.Soiling.kimber_recurrence",
    "Pvlib.Props.Soiling.kimber_range",
    "Pvlib.Props.Soiling.rollingSum_fin"
   ],
   "note": ""
  },
  {
   "property": "C12",
   "status": "proved",
   "theorems": [
    "Pvlib.Props.Soiling.hsu_value",
    "Pvlib.Props.Soiling.hsu_cleaned",
    "Pvlib.Props.Soiling.hsu_range",
    "Pvlib.Props.Soiling.hsu_decreases",
    "Pvlib.Props.Soiling.hsuMass_eq"
   ],
   "note": ""
  },
  {
   "property": "C13",
   "status": "proved",
   "theorems": [
    "Pvlib.Props.Tracking.singleaxis_night",
    "Pvlib.Props.Tracking.singleaxis_ranges",
    "Pvlib.Props.Tracking.singleaxis_day"
   ],
   "note": ""
  },
  {
   "property": "C14",
   "status": "proved",
   "theorems": [
    "Pvlib.Props.Tracking.trackerNormal_unit",
    "Pvlib.Props.Tracking.trackerNormal_perp",
    "Pvlib.Props.Tracking.surfaceOrientation_normal"
   ],
   "note": ""
  },
  {
   "property": "C15",
   "status": "proved",
   "theorems": [
    "Pvlib.Props.Tracking.sun_dot_normal",
    "Pvlib.Props.Tracking.trueTracking_optimal"
   ],
   "note": ""
  },
  {
   "property": "C16",
   "status": "proved",
   "theorems": [
    "Pvlib.Props.Tracking.singleaxis_backtrack",
    "Pvlib.Props.Tracking.backtrack_no_shade",
    "Pvlib.Props.Tracking.backtrack_tight",
    "Pvlib.Props.Tracking.backtrack_towards_horizontal"
   ],
   "note": ""
  },
  {
   "property": "C17",
   "status": "proved",
   "theorems": [
    "Pvlib.Props.Geometry.aoiProjection_dot",
    "Pvlib.Props.Geometry.aoiProjection_range",
    "Pvlib.Props.Geometry.aoiProjection_nan_iff",
    "Pvlib.Props.Geometry.aoiProjection_rotate",
    "Pvlib.Props.Geometry.aoiProjection_turn",
    "Pvlib.Props.Geometry.aoiProjection_swap",
    "Pvlib.Props.Geometry.aoi_spec",
    "Pvlib.Props.Geometry.aoi_range",
    "Pvlib.Props.Geometry.aoi_facing",
    "Pvlib.Props.Geometry.aoi_horizontal"
   ],
   "note": ""
  },
  {
   "property": "C18",
   "status": "proved",
   "theorems": [
    "Pvlib.Props.Geometry.beam_value",
    "Pvlib.Props.Geometry.beam_nonneg",
    "Pvlib.Props.Geometry.beam_behind",
    "Pvlib.Props.Geometry.beam_le_dni",
    "Pvlib.Props.Geometry.beam_eq_poa_direct"
   ],
   "note": ""
  },
  {
   "property": "C19",
   "status": "proved",
   "theorems": [
    "Pvlib.Props.Transposition.total_sums",
    "Pvlib.Props.Transposition.total_direct",
    "Pvlib.Props.Transposition.skyDiffuse_ok_iff",
    "Pvlib.Props.Transposition.skyDiffuse_error"
   ],
   "note": ""
  },
  {
   "property": "C20",
   "status": "proved",
   "theorems": [
    "Pvlib.Props.Transposition.isotropic_components",
    "Pvlib.Props.Transposition.haydavies_components",
    "Pvlib.Props.Transposition.reindl_components",
    "Pvlib.Props.Transposition.perez_components",
    "Pvlib.Props.Transposition.perezDriesse_components",
    "Pvlib.Props.Transposition.perezDriesse_components_shipped",
    "Pvlib.Props.Transposition.pdSpline_convex",
    "Pvlib.Props.Transposition.perezDriesse_components_counterexample"
   ],
   "note": "The code violates the sum for perez_driesse when the total is clipped at zero; the counterexample is proved."
  },
  {
   "property": "C21",
   "status": "proved",
   "theorems": [
    "Pvlib.Props.Transposition.isotropic_horizontal",
    "Pvlib.Props.Transposition.king_horizontal",
    "Pvlib.Props.Transposition.haydavies_horizontal",
    "Pvlib.Props.Transposition.reindl_horizontal",
    "Pvlib.Props.Transposition.perez_horizontal",
    "Pvlib.Props.Transposition.perezDriesse_horizontal_shipped",
    "Pvlib.Props.Transposition.ground_horizontal",
    "Pvlib.Props.Transposition.total_horizontal",
    "Pvlib.Props.Transposition.klucher_horizontal_gt"
   ],
   "note": "klucher does not satisfy it (proved)."
  },
  {
   "property": "C22",
   "status": "proved",
   "theorems": [
    "Pvlib.Props.Transposition.perezDriesse_no_diffuse",
    "Pvlib.Props.Transposition.skyDiffuse_nonneg"
   ],
   "note": ""
  },
  {
   "property": "C23",
   "status": "proved",
   "theorems": [
    "Pvlib.Props.Decomposition.erbs_closes",
    "Pvlib.Props.Decomposition.orgillHollands_closes",
    "Pvlib.Props.Decomposition.boland_closes",
    "Pvlib.Props.Decomposition.erbsDriesse_closes",
    "Pvlib.Props.Decomposition.erbsDriesse_error_iff",
    "Pvlib.Props.Decomposition.louche_closes",
    "Pvlib.Props.Decomposition.default_threshold_ok"
   ],
   "note": ""
  },
  {
   "property": "C24",
   "status": "proved",
   "theorems": [
    "Pvlib.Props.Decomposition.erbs_fraction",
    "Pvlib.Props.Decomposition.orgillHollands_fraction",
    "Pvlib.Props.Decomposition.boland_fraction",
    "Pvlib.Props.Decomposition.erbsDriesse_fraction"
   ],
   "note": ""
  },
  {
   "property": "C25",
   "status": "proved",
   "theorems": [
    "Pvlib.Props.Decomposition.clearskyIndex_nan_iff",
    "Pvlib.Props.Decomposition.clearskyIndex_value",
    "Pvlib.Props.Decomposition.clearskyIndex_range",
    "Pvlib.Props.Decomposition.clearnessIndex_range",
    "Pvlib.Props.Decomposition.clearnessIndexZI_range",
    "Pvlib.Props.Decomposition.clearnessIndex_value",
    "Pvlib.Props.Decomposition.clearnessIndex_negative",
    "Pvlib.Props.Decomposition.ktPrimeFactor_range"
   ],
   "note": ""
  },
  {
   "property": "C26",
   "status": "proved",
   "theorems": [
    "Pvlib.Props.Decomposition.ktPrimeBin_spec",
    "Pvlib.Props.Decomposition.zenithBin_spec",
    "Pvlib.Props.Decomposition.wBin_spec",
    "Pvlib.Props.Decomposition.deltaBin_spec",
    "Pvlib.Props.Decomposition.dirintCoeffs_entry",
    "Pvlib.Props.Decomposition.dirintCoeffs_nan_iff",
    "Pvlib.Props.Decomposition.dirintTable_range",
    "Pvlib.Props.Decomposition.dirint_day",
    "Pvlib.Props.Decomposition.dirint_night",
    "Pvlib.Props.Decomposition.dirint_single",
    "Pvlib.Props.Decomposition.disc_nonneg",
    "Pvlib.Props.Decomposition.disc_bad",
    "Pvlib.Props.Decomposition.disc_day"
   ],
   "note": "finding: dirint is NaN for zenith > 90 where disc is 0, and NaN for a length-1 series with use_delta_kt_prime"
  },
  {
   "property": "C27",
   "status": "proved",
   "theorems": [
    "Pvlib.Props.Decomposition.complete_error_iff",
    "Pvlib.Props.Decomposition.complete_keeps",
    "Pvlib.Props.Decomposition.complete_closes",
    "Pvlib.Props.Decomposition.complete_dni",
    "Pvlib.Props.Decomposition.complete_dni_closes"
   ],
   "note": ""
  },
  {
   "property": "C28",
   "status": "proved",
   "theorems": [
    "Pvlib.Props.Decomposition.extra_near_constant",
    "Pvlib.Props.Decomposition.extra_error_iff",
    "Pvlib.Props.Decomposition.extra_periodic"
   ],
   "note": ""
  },
  {
   "property": "C29",
   "status": "proved",
   "theorems": [
    "Pvlib.Props.GtiDirint.gtiDirint_guesses",
    "Pvlib.Props.GtiDirint.gtiDirint_best",
    "Pvlib.Props.GtiDirint.gtiDirint_stops",
    "Pvlib.Props.GtiDirint.gtiDirint_error_iff"
   ],
   "note": "the numerical content of a pass is an arbitrary function"
  },
  {
   "property": "C30",
   "status": "proved",
   "theorems": [
    "Pvlib.Props.Shading.shadedFraction_range",
    "Pvlib.Props.Shading.martinez_value",
    "Pvlib.Props.Shading.martinez_range",
    "Pvlib.Props.Shading.martinez_unshaded",
    "Pvlib.Props.Shading.martinez_mono",
    "Pvlib.Props.Shading.martinez_night"
   ],
   "note": ""
  },
  {
   "property": "C31",
   "status": "proved",
   "theorems": [
    "Pvlib.Props.Shading.maskingAngle_spec",
    "Pvlib.Props.Shading.maskingAngle_top",
    "Pvlib.Props.Shading.maskingAngle_antitone",
    "Pvlib.Props.Shading.groundAngle_spec",
    "Pvlib.Props.Shading.passias_value",
    "Pvlib.Props.Shading.passias_range",
    "Pvlib.Props.Shading.passias_mono"
   ],
   "note": ""
  },
  {
   "property": "C32",
   "status": "proved",
   "theorems": [
    "Pvlib.Props.Golden.golden_error_iff",
    "Pvlib.Props.Golden.golden_terminates",
    "Pvlib.Props.Golden.golden_bracket",
    "Pvlib.Props.Golden.golden_value",
    "Pvlib.Props.Golden.golden_maximiser"
   ],
   "note": "exact arithmetic: with floats the loop may not reach atol when atol is below the spacing of doubles at the interval"
  },
  {
   "property": "C33",
   "status": "proved",
   "theorems": [
    "Pvlib.Props.ToolsMisc.latIndex_spec",
    "Pvlib.Props.ToolsMisc.lonIndex_spec",
    "Pvlib.Props.ToolsMisc.index_exists",
    "Pvlib.Props.ToolsMisc.index_bad_name",
    "Pvlib.Props.ToolsMisc.index_nan"
   ],
   "note": ""
  },
  {
   "property": "C34",
   "status": "proved",
   "theorems": [
    "Pvlib.Props.ToolsMisc.buildKwargs_get",
    "Pvlib.Props.ToolsMisc.buildKwargs_keys",
    "Pvlib.Props.ToolsMisc.buildArgs_ok",
    "Pvlib.Props.ToolsMisc.buildArgs_error"
   ],
   "note": ""
  },
  {
   "property": "C35",
   "status": "proved",
   "theorems": [
    "Pvlib.Props.ToolsMisc.djd_roundtrip",
    "Pvlib.Props.ToolsMisc.djd_roundtrip'",
    "Pvlib.Props.ToolsMisc.djd_order",
    "Pvlib.Props.ToolsMisc.djd_epoch"
   ],
   "note": "time-zone display is abstract: an aware datetime is its UTC instant and a zone name"
  },
  {
   "property": "C36",
   "status": "proved",
   "theorems": [
    "Pvlib.Props.Scaling.wavelet_sum",
    "Pvlib.Props.Scaling.smoothed_vr_one",
    "Pvlib.Props.Scaling.smoothed_const",
    "Pvlib.Props.Scaling.smooth_damps",
    "Pvlib.Props.Scaling.vr_range",
    "Pvlib.Props.Scaling.vr_zero_sites",
    "Pvlib.Props.Scaling.scales_pos_iff",
    "Pvlib.Props.Scaling.wvm_spec"
   ],
   "note": "the numerical minimiser recovering the site count is a parameter; finding: wvm raises for a time step above 4096 s"
  },
  {
   "property": "C37",
   "status": "proved",
   "theorems": [
    "Pvlib.Props.PvArray.adr_stc",
    "Pvlib.Props.PvArray.adr_dark",
    "Pvlib.Props.PvArray.adr_finite",
    "Pvlib.Props.PvArray.huld_stc",
    "Pvlib.Props.PvArray.huld_dark",
    "Pvlib.Props.PvArray.huld_proportional",
    "Pvlib.Props.PvArray.huld_valueError_iff",
    "Pvlib.Props.PvArray.batzelis_stc",
    "Pvlib.Props.PvArray.batzelis_dark",
    "Pvlib.Props.PvArray.batzelis_power",
    "Pvlib.Props.PvArray.batzelis_nan"
   ],
   "note": ""
  },
  {
   "property": "C38",
   "status": "proved",
   "theorems": [
    "Pvlib.Props.PvArray.dvoracek_valueError_iff",
    "Pvlib.Props.PvArray.dvoracek_range",
    "Pvlib.Props.PvArray.dvoracek_antitone",
    "Pvlib.Props.PvArray.dvoracek_named"
   ],
   "note": ""
  },
  {
   "property": "C39",
   "status": "proved",
   "theorems": [
    "Pvlib.Props.Location.setTz_int",
    "Pvlib.Props.Location.setTz_float_whole",
    "Pvlib.Props.Location.setTz_float_bad",
    "Pvlib.Props.Location.setTz_other",
    "Pvlib.Props.Location.setTz_name",
    "Pvlib.Props.Location.setTz_atomic",
    "Pvlib.Props.Location.run_idempotent",
    "Pvlib.Props.Location.run_last"
   ],
   "note": ""
  },
  {
   "property": "C40",
   "status": "proved",
   "theorems": [
    "Pvlib.Props.ToolsMisc.lookupAltitude_spec",
    "Pvlib.Props.ToolsMisc.lookupAltitude_error"
   ],
   "note": ""
  },
  {
   "property": "C41",
   "status": "proved",
   "theorems": [
    "Pvlib.Props.Tracking.axisTilt_in_slope",
    "Pvlib.Props.Tracking.crossAxisTilt_parallel",
    "Pvlib.Props.Tracking.slope_tracker_parallel"
   ],
   "note": ""
  },
  {
   "property": "C42",
   "status": "proved",
   "theorems": [
    "Pvlib.Props.Shading.passias_always_number",
    "Pvlib.Props.Shading.maskingAnglePassias_average",
    "Pvlib.Props.Shading.maskingAnglePassias_flat",
    "Pvlib.Props.Shading.maskingAngle_eq"
   ],
   "note": ""
  },
  {
   "property": "C43",
   "status": "proved",
   "theorems": [
    "Pvlib.Props.Decomposition.liujordan_closes",
    "Pvlib.Props.Decomposition.campbellNorman_closes",
    "Pvlib.Props.Decomposition.campbellNorman_night"
   ],
   "note": ""
  },
  {
   "property": "C44",
   "status": "proved",
   "theorems": [
    "Pvlib.Props.Decomposition.spitters_range"
   ],
   "note": ""
  },
  {
   "property": "C45",
   "status": "proved",
   "theorems": [
    "Pvlib.Props.Atmosphere.tdew_of_rh_of_tdew",
    "Pvlib.Props.Atmosphere.rh_of_tdew_of_rh",
    "Pvlib.Props.Atmosphere.rh_le_100_iff"
   ],
   "note": ""
  },
  {
   "property": "C46",
   "status": "proved",
   "theorems": [
    "Pvlib.Props.Atmosphere.windspeed_contract",
    "Pvlib.Props.Atmosphere.windspeed_value",
    "Pvlib.Props.Atmosphere.windspeed_surface",
    "Pvlib.Props.Atmosphere.windspeed_surface_types",
    "Pvlib.Props.Atmosphere.windspeed_other_types",
    "Pvlib.Props.Atmosphere.windspeed_documented_differs",
    "Pvlib.Props.Atmosphere.windspeed_laws",
    "Pvlib.Props.Atmosphere.windspeed_not_neg"
   ],
   "note": ""
  },
  {
   "property": "C47",
   "status": "proved",
   "theorems": [
    "Pvlib.Props.Atmosphere.angstrom_roundtrip",
    "Pvlib.Props.Atmosphere.angstrom_compose"
   ],
   "note": ""
  },
  {
   "property": "C48",
   "status": "proved",
   "theorems": [
    "Pvlib.Props.Atmosphere.airmass_accepts",
    "Pvlib.Props.Atmosphere.airmass_night",
    "Pvlib.Props.Atmosphere.airmass_positive",
    "Pvlib.Props.Atmosphere.airmass_simple",
    "Pvlib.Props.Atmosphere.airmass_youngirvine_sign",
    "Pvlib.Props.Atmosphere.absolute_airmass"
   ],
   "note": ""
  },
  {
   "property": "C49",
   "status": "proved",
   "theorems": [
    "Pvlib.Props.Atmosphere.location_get_airmass",
    "Pvlib.Props.Atmosphere.gueymard2003_rejected"
   ],
   "note": ""
  },
  {
   "property": "C50",
   "status": "proved",
   "theorems": [
    "Pvlib.Props.Atmosphere.alt2pres_antitone",
    "Pvlib.Props.Atmosphere.pres2alt_antitone",
    "Pvlib.Props.Atmosphere.gueymard94_pw_laws",
    "Pvlib.Props.Atmosphere.kasten96_laws"
   ],
   "note": ""
  },
  {
   "property": "C51",
   "status": "proved",
   "theorems": [
    "Pvlib.Props.Temperature.steady_resistance",
    "Pvlib.Props.Temperature.steady_no_sun",
    "Pvlib.Props.Temperature.steady_mono",
    "Pvlib.Props.Temperature.sapm_cell_at_reference",
    "Pvlib.Props.Temperature.steady_nan"
   ],
   "note": ""
  },
  {
   "property": "C52",
   "status": "proved",
   "theorems": [
    "Pvlib.Props.Temperature.faimanRad_none",
    "Pvlib.Props.Temperature.faimanRad_balance",
    "Pvlib.Props.Temperature.faimanRad_sky",
    "Pvlib.Props.Temperature.ross_contract",
    "Pvlib.Props.Temperature.ross_noct"
   ],
   "note": ""
  },
  {
   "property": "C53",
   "status": "proved",
   "theorems": [
    "Pvlib.Props.Temperature.standoff_table",
    "Pvlib.Props.Temperature.noctSam_contract",
    "Pvlib.Props.Temperature.noctSam_at_noct",
    "Pvlib.Props.Temperature.noctSam_laws",
    "Pvlib.Props.Temperature.noctSam_height",
    "Pvlib.Props.Temperature.noctSam_effective"
   ],
   "note": ""
  },
  {
   "property": "C54",
   "status": "proved",
   "theorems": [
    "Pvlib.Props.Temperature.glm_parameters",
    "Pvlib.Props.Temperature.glm_fresh",
    "Pvlib.Props.Temperature.glm_faiman",
    "Pvlib.Props.Temperature.glm_pvsyst",
    "Pvlib.Props.Temperature.glm_noct_sam",
    "Pvlib.Props.Temperature.glm_sapm",
    "Pvlib.Props.Temperature.glm_conversions"
   ],
   "note": ""
  },
  {
   "property": "C55",
   "status": "proved",
   "theorems": [
    "Pvlib.Props.Prilliman.prilliman_errors",
    "Pvlib.Props.Prilliman.prilliman_coarse",
    "Pvlib.Props.Prilliman.prilliman_value",
    "Pvlib.Props.Prilliman.average_bounds",
    "Pvlib.Props.Prilliman.prilliman_constant",
    "Pvlib.Props.Prilliman.prilliman_causal"
   ],
   "note": ""
  },
  {
   "property": "C56",
   "status": "proved",
   "theorems": [
    "Pvlib.Props.Fuentes.fuentes_step",
    "Pvlib.Props.Fuentes.fuentes_bounds",
    "Pvlib.Props.Fuentes.skyC_le"
   ],
   "note": "Under the Physical conditions on NOCT, emissivity and absorption (met by the defaults for INOCT from 45 to 69 C); outside them the ground-temperature radicand can be negative and the code returns NaN."
  },
  {
   "property": "C57",
   "status": "proved",
   "theorems": [
    "Pvlib.Props.Transposition.perez_formula"
   ],
   "note": ""
  },
  {
   "property": "C58",
   "status": "proved",
   "theorems": [
    "Pvlib.Props.Iam.ashrae_isIam",
    "Pvlib.Props.Iam.ashrae_total",
    "Pvlib.Props.Iam.martinRuiz_isIam",
    "Pvlib.Props.Iam.schlick_isIam",
    "Pvlib.Props.Iam.sapm_value",
    "Pvlib.Props.Iam.sapm_nan"
   ],
   "note": ""
  },
  {
   "property": "C59",
   "status": "proved",
   "theorems": [
    "Pvlib.Props.IamPhysical.physical_isIam",
    "Pvlib.Props.IamPhysical.physical_coated",
    "Pvlib.Props.IamPhysical.physical_null_coating"
   ],
   "note": "For n > 2+sqrt 3 (no glass) the code can return values above 1; for |aoi| beyond 180 degrees it is periodic, not zero."
  },
  {
   "property": "C60",
   "status": "proved",
   "theorems": [
    "Pvlib.Props.IamDiffuse.martinRuizDiffuse_range",
    "Pvlib.Props.IamDiffuse.martinRuizDiffuse_swap"
   ],
   "note": ""
  },
  {
   "property": "C61",
   "status": "proved",
   "theorems": [
    "Pvlib.Props.IamMarion.interp_contract",
    "Pvlib.Props.IamMarion.linSpline_node",
    "Pvlib.Props.IamMarion.linSpline_range",
    "Pvlib.Props.IamMarion.interp_linear"
   ],
   "note": "The quadratic and cubic splines of scipy are abstract; the linear one is modelled."
  },
  {
   "property": "C62",
   "status": "proved",
   "theorems": [
    "Pvlib.Props.IamMarion.marion_errors",
    "Pvlib.Props.IamMarion.marion_average",
    "Pvlib.Props.IamMarion.marion_sky",
    "Pvlib.Props.IamMarion.marion_ground_horizontal",
    "Pvlib.Props.IamMarion.marion_swap",
    "Pvlib.Props.IamMarion.marion_nan",
    "Pvlib.Props.IamMarion.marionDiffuse_contract"
   ],
   "note": ""
  },
  {
   "property": "C63",
   "status": "proved",
   "theorems": [
    "Pvlib.Props.IamDiffuse.schlickDiffuse_conserve",
    "Pvlib.Props.IamDiffuse.schlickDiffuse_swap",
    "Pvlib.Props.IamDiffuse.schlickDiffuse_special",
    "Pvlib.Props.IamDiffuse.hemisphere_average"
   ],
   "note": ""
  },
  {
   "property": "C64",
   "status": "proved",
   "theorems": [
    "Pvlib.Props.IamFit.convert_unknown",
    "Pvlib.Props.IamFit.convert_params",
    "Pvlib.Props.IamFit.convert_martinRuiz_nonpos",
    "Pvlib.Props.IamFit.convert_physical_physical",
    "Pvlib.Props.IamFit.convert_single",
    "Pvlib.Props.IamFit.convert_martinRuiz_physical",
    "Pvlib.Props.IamFit.fixedN",
    "Pvlib.Props.IamFit.intercept_zero",
    "Pvlib.Props.IamFit.convert_ashrae_physical",
    "Pvlib.Props.IamFit.fit_contract",
    "Pvlib.Props.IamFit.residual_only_front",
    "Pvlib.Props.IamFit.residual_zero_iff",
    "Pvlib.Props.IamFit.returned_is_minimised",
    "Pvlib.Props.IamFit.fit_recovers_ashrae"
   ],
   "note": "scipy.optimize.minimize is a parameter that respects its bounds; convert physical->physical fails with UnboundLocalError in the code and in the model."
  },
  {
   "property": "C65",
   "status": "proved",
   "theorems": [
    "Pvlib.Props.SingleDiode.bishop88_point",
    "Pvlib.Props.SingleDiode.bishop88_solves",
    "Pvlib.Props.SingleDiode.solves_iff",
    "Pvlib.Props.SingleDiode.bishop88_beyond_breakdown",
    "Pvlib.Props.SingleDiode.bishop88_nan"
   ],
   "note": ""
  },
  {
   "property": "C66",
   "status": "proved",
   "theorems": [
    "Pvlib.Props.SingleDiode.gradient_correct_iff",
    "Pvlib.Props.SingleDiode.gradients_correct"
   ],
   "note": "The breakdown part of the gradient is proved wrong unless breakdown_voltage=-1 (finding)."
  },
  {
   "property": "C67",
   "status": "proved",
   "theorems": [
    "Pvlib.Props.SingleDiode.current_strictAnti",
    "Pvlib.Props.SingleDiode.voltage_strictMono",
    "Pvlib.Props.SingleDiode.solution_unique",
    "Pvlib.Props.SingleDiode.voc_nonneg",
    "Pvlib.Props.SingleDiode.voc_bound",
    "Pvlib.Props.SingleDiode.current_zero_nonneg",
    "Pvlib.Props.SingleDiode.iFromV_unique",
    "Pvlib.Props.SingleDiode.vFromI_unique",
    "Pvlib.Props.SingleDiode.method_names",
    "Pvlib.Props.SingleDiode.brentq_iFromV",
    "Pvlib.Props.SingleDiode.brentq_vFromI"
   ],
   "note": "Root finders are parameters with their documented contract."
  },
  {
   "property": "C68",
   "status": "proved",
   "theorems": [
    "Pvlib.Props.SingleDiode.mpp_is_max",
    "Pvlib.Props.SingleDiode.brentq_mpp",
    "Pvlib.Props.SingleDiode.exists_brackets"
   ],
   "note": ""
  },
  {
   "property": "C69",
   "status": "proved",
   "theorems": [
    "Pvlib.Props.LambertW.diode_unique",
    "Pvlib.Props.LambertW.exists_isLambertW",
    "Pvlib.Props.LambertW.exists_isLogLambertW",
    "Pvlib.Props.LambertW.iFromV_solves",
    "Pvlib.Props.LambertW.vFromI_solves",
    "Pvlib.Props.LambertW.vFromI_noShunt",
    "Pvlib.Props.LambertW.roundtrip",
    "Pvlib.Props.LambertW.roundtrip'",
    "Pvlib.Props.LambertW.agrees_with_bishop88",
    "Pvlib.Props.LambertW.invalid_nan"
   ],
   "note": "The Lambert W function is a parameter with its defining equation; C70 bounds the error of pvlib's approximation."
  },
  {
   "property": "C70",
   "status": "proved",
   "theorems": [
    "Pvlib.Props.LambertW.logLambertw_accuracy",
    "Pvlib.Props.LambertW.lambertwPvlib_accuracy",
    "Pvlib.Props.LambertW.lambertwPvlib_invalid",
    "Pvlib.Props.LambertW.iFromV_accuracy"
   ],
   "note": "Truncation error in exact arithmetic; rounding is not modelled."
  },
  {
   "property": "C71",
   "status": "proved",
   "theorems": [
    "Pvlib.Props.LambertW.exists_minimisesUnimodal",
    "Pvlib.Props.LambertW.mpp_unique",
    "Pvlib.Props.LambertW.lambertw_points",
    "Pvlib.Props.LambertW.lambertw_dark",
    "Pvlib.Props.LambertW.lambertw_tiny",
    "Pvlib.Props.LambertW.lambertw_ivcurve"
   ],
   "note": "find_minimum is a parameter, exact on unimodal functions."
  },
  {
   "property": "C72",
   "status": "proved",
   "theorems": [
    "Pvlib.Props.LambertW.batzelis_points",
    "Pvlib.Props.LambertW.batzelis_dark"
   ],
   "note": ""
  },
  {
   "property": "C73",
   "status": "proved",
   "theorems": [
    "Pvlib.Props.Spectrum.mismatch_value",
    "Pvlib.Props.Spectrum.mismatch_self",
    "Pvlib.Props.Spectrum.mismatch_scale",
    "Pvlib.Props.Spectrum.mismatch_flat",
    "Pvlib.Props.Spectrum.usable_range",
    "Pvlib.Props.Spectrum.mismatch_standard",
    "Pvlib.Props.Spectrum.value_node",
    "Pvlib.Props.Spectrum.value_range",
    "Pvlib.Props.Spectrum.value_left",
    "Pvlib.Props.Spectrum.value_right"
   ],
   "note": ""
  },
  {
   "property": "C74",
   "status": "proved",
   "theorems": [
    "Pvlib.Props.Spectrum.firstsolar_errors",
    "Pvlib.Props.Spectrum.firstsolar_value",
    "Pvlib.Props.Spectrum.case_insensitive",
    "Pvlib.Props.Spectrum.sapmFactor_value",
    "Pvlib.Props.Spectrum.sapmFactor_nonneg",
    "Pvlib.Props.Spectrum.jrc_value",
    "Pvlib.Props.Spectrum.pvspec_value",
    "Pvlib.Props.Spectrum.caballero_value",
    "Pvlib.Props.Spectrum.caballero_polo_errors",
    "Pvlib.Props.Spectrum.polo_clip",
    "Pvlib.Props.Spectrum.polo_value",
    "Pvlib.Props.Spectrum.firstsolar_modules",
    "Pvlib.Props.Spectrum.caballero_modules",
    "Pvlib.Props.Spectrum.pvspec_modules",
    "Pvlib.Props.Spectrum.jrc_modules",
    "Pvlib.Props.Spectrum.polo_modules"
   ],
   "note": ""
  },
  {
   "property": "C75",
   "status": "proved",
   "theorems": [
    "Pvlib.Props.Spectrum.qe_sr_inverse",
    "Pvlib.Props.Spectrum.ideal_response",
    "Pvlib.Props.Spectrum.normalize_max",
    "Pvlib.Props.Spectrum.ape_range",
    "Pvlib.Props.Spectrum.ape_negative"
   ],
   "note": ""
  },
  {
   "property": "C76",
   "status": "proved",
   "theorems": [
    "Pvlib.Props.CalcParams.desoto_value",
    "Pvlib.Props.CalcParams.desoto_reference",
    "Pvlib.Props.CalcParams.desoto_linear",
    "Pvlib.Props.CalcParams.desoto_sane",
    "Pvlib.Props.CalcParams.desoto_sat_strictMono",
    "Pvlib.Props.CalcParams.cec_value"
   ],
   "note": ""
  },
  {
   "property": "C77",
   "status": "proved",
   "theorems": [
    "Pvlib.Props.CalcParams.pvsyst_value",
    "Pvlib.Props.CalcParams.pvsyst_reference",
    "Pvlib.Props.CalcParams.pvsyst_reference_shunt",
    "Pvlib.Props.CalcParams.pvsyst_shunt",
    "Pvlib.Props.CalcParams.pvsyst_sane",
    "Pvlib.Props.CalcParams.pvsyst_sat_strictMono"
   ],
   "note": ""
  },
  {
   "property": "C78",
   "status": "proved",
   "theorems": [
    "Pvlib.Props.PvDiode.exists_good",
    "Pvlib.Props.PvDiode.case_insensitive",
    "Pvlib.Props.PvDiode.unknown_method",
    "Pvlib.Props.PvDiode.max_power_point_lambertw",
    "Pvlib.Props.PvDiode.max_power_point_max",
    "Pvlib.Props.PvDiode.singlediode_agree",
    "Pvlib.Props.PvDiode.singlediode_brentq",
    "Pvlib.Props.PvDiode.from_agree",
    "Pvlib.Props.PvDiode.desoto_power",
    "Pvlib.Props.PvDiode.current_increases",
    "Pvlib.Props.PvDiode.desoto_power_strictMono"
   ],
   "note": "Numerical routines (Lambert W, root finders, minimiser) are parameters with contracts."
  },
  {
   "property": "C79",
   "status": "proved",
   "theorems": [
    "Pvlib.Props.Sapm.sapm_value",
    "Pvlib.Props.Sapm.sapm_reference",
    "Pvlib.Props.Sapm.sapm_optional",
    "Pvlib.Props.Sapm.sapm_optional_reference",
    "Pvlib.Props.Sapm.sapm_dark",
    "Pvlib.Props.Sapm.sapm_invalid",
    "Pvlib.Props.Sapm.sapm_voltages",
    "Pvlib.Props.Sapm.sapm_voc_mono",
    "Pvlib.Props.Sapm.effective_irradiance"
   ],
   "note": ""
  },
  {
   "property": "C80",
   "status": "proved",
   "theorems": [
    "Pvlib.Props.PvLosses.scale_value",
    "Pvlib.Props.PvLosses.scale_unknown",
    "Pvlib.Props.PvLosses.scale_power"
   ],
   "note": ""
  },
  {
   "property": "C81",
   "status": "proved",
   "theorems": [
    "Pvlib.Props.PvLosses.pvwatts_dc_value",
    "Pvlib.Props.PvLosses.marion_facts",
    "Pvlib.Props.PvLosses.pvwatts_dc_reference",
    "Pvlib.Props.PvLosses.pvwatts_losses_value",
    "Pvlib.Props.PvLosses.pvwatts_losses_default",
    "Pvlib.Props.PvLosses.dc_ohmic"
   ],
   "note": ""
  },
  {
   "property": "C82",
   "status": "proved",
   "theorems": [
    "Pvlib.Props.PvLosses.ffill_value",
    "Pvlib.Props.PvLosses.bfill_exact_value",
    "Pvlib.Props.PvLosses.combine_value",
    "Pvlib.Props.PvLosses.combine_nan"
   ],
   "note": "fill_method nearest is not modelled."
  },
  {
   "property": "C83",
   "status": "proved",
   "theorems": [
    "Pvlib.Props.PvLosses.retrieve_sam_dispatch",
    "Pvlib.Props.PvLosses.translate_value",
    "Pvlib.Props.PvLosses.normalize_warnings"
   ],
   "note": "Reading and parsing the CSV files is not modelled."
  },
  {
   "property": "C84",
   "status": "proved",
   "theorems": [
    "Pvlib.Props.PvSystem.system_nonempty",
    "Pvlib.Props.PvSystem.system_empty",
    "Pvlib.Props.PvSystem.system_keeps",
    "Pvlib.Props.PvSystem.system_one",
    "Pvlib.Props.PvSystem.system_default",
    "Pvlib.Props.PvSystem.array_albedo"
   ],
   "note": ""
  },
  {
   "property": "C85",
   "status": "proved",
   "theorems": [
    "Pvlib.Props.PvSystem.validate_iff",
    "Pvlib.Props.PvSystem.validate_error",
    "Pvlib.Props.PvSystem.getIrradiance_iff",
    "Pvlib.Props.PvSystem.getIam_iff",
    "Pvlib.Props.PvSystem.getCellTemperature_iff",
    "Pvlib.Props.PvSystem.desoto_iff",
    "Pvlib.Props.PvSystem.cec_iff",
    "Pvlib.Props.PvSystem.pvsyst_iff",
    "Pvlib.Props.PvSystem.sapm_iff",
    "Pvlib.Props.PvSystem.pvwattsDc_iff",
    "Pvlib.Props.PvSystem.sapmEff_iff",
    "Pvlib.Props.PvSystem.firstSolar_iff",
    "Pvlib.Props.PvSystem.scale_iff",
    "Pvlib.Props.PvSystem.getAoi_eq",
    "Pvlib.Props.PvSystem.sapmSpectral_iff",
    "Pvlib.Props.PvSystem.dcOhms_iff",
    "Pvlib.Props.PvSystem.inferCellType_iff",
    "Pvlib.Props.PvSystem.getIrradiance_mismatch",
    "Pvlib.Props.PvSystem.getCellTemperature_mismatch",
    "Pvlib.Props.PvSystem.perTwo_mismatch",
    "Pvlib.Props.PvSystem.pvwattsDc_first_error",
    "Pvlib.Props.PvSystem.single_irradiance",
    "Pvlib.Props.PvSystem.pvwattsDc_independent"
   ],
   "note": ""
  },
  {
   "property": "C86",
   "status": "proved",
   "theorems": [
    "Pvlib.Props.ArrayClass.ac_case",
    "Pvlib.Props.ArrayClass.ac_unknown",
    "Pvlib.Props.ArrayClass.ac_sandia_one",
    "Pvlib.Props.ArrayClass.ac_sandia_many",
    "Pvlib.Props.ArrayClass.ac_pvwatts",
    "Pvlib.Props.ArrayClass.ac_adr_many",
    "Pvlib.Props.ArrayClass.ac_adr_one",
    "Pvlib.Props.ArrayClass.ac_mismatch",
    "Pvlib.Props.ArrayClass.ac_sandia_no_voltage"
   ],
   "note": ""
  },
  {
   "property": "C87",
   "status": "proved",
   "theorems": [
    "Pvlib.Props.ArrayClass.hasSub_iff",
    "Pvlib.Props.ArrayClass.temps_given",
    "Pvlib.Props.ArrayClass.infer_sapm",
    "Pvlib.Props.ArrayClass.infer_other",
    "Pvlib.Props.ArrayClass.infer_none",
    "Pvlib.Props.ArrayClass.cellType_priority",
    "Pvlib.Props.ArrayClass.cellType_accepted",
    "Pvlib.Props.ArrayClass.firstSolar_choice"
   ],
   "note": ""
  },
  {
   "property": "C88",
   "status": "proved",
   "theorems": [
    "Pvlib.Props.ArrayClass.temp_sapm",
    "Pvlib.Props.ArrayClass.temp_sapm_missing",
    "Pvlib.Props.ArrayClass.temp_pvsyst",
    "Pvlib.Props.ArrayClass.temp_faiman",
    "Pvlib.Props.ArrayClass.temp_faimanRad",
    "Pvlib.Props.ArrayClass.temp_fuentes",
    "Pvlib.Props.ArrayClass.temp_noctSam",
    "Pvlib.Props.ArrayClass.temp_ross",
    "Pvlib.Props.ArrayClass.temp_unknown",
    "Pvlib.Props.ArrayClass.temp_inferred",
    "Pvlib.Props.ArrayClass.iam_models",
    "Pvlib.Props.ArrayClass.dcOhms_choice"
   ],
   "note": ""
  },
  {
   "property": "C89",
   "status": "proved",
   "theorems": [
    "Pvlib.Props.ArrayClass.irradiance_fixed",
    "Pvlib.Props.ArrayClass.irradiance_tracker",
    "Pvlib.Props.ArrayClass.irradiance_default_ok",
    "Pvlib.Props.ArrayClass.aoi_fixed"
   ],
   "note": ""
  },
  {
   "property": "C90",
   "status": "proved",
   "theorems": [
    "Pvlib.Props.ArrayClass.losses_value",
    "Pvlib.Props.ArrayClass.desoto_value",
    "Pvlib.Props.ArrayClass.desoto_missing",
    "Pvlib.Props.ArrayClass.cec_value",
    "Pvlib.Props.ArrayClass.pvsyst_value",
    "Pvlib.Props.ArrayClass.pvwattsDc_value",
    "Pvlib.Props.ArrayClass.pvwattsDc_missing"
   ],
   "note": ""
  },
  {
   "property": "C91",
   "status": "proved",
   "theorems": [
    "Pvlib.Props.ChainConfig.dc_named_accepted",
    "Pvlib.Props.ChainConfig.dc_named_refused",
    "Pvlib.Props.ChainConfig.dc_named_model",
    "Pvlib.Props.ChainConfig.dc_singlediode",
    "Pvlib.Props.ChainConfig.dc_inferred",
    "Pvlib.Props.ChainConfig.dc_inferred_refused",
    "Pvlib.Props.ChainConfig.dc_accepted_computes",
    "Pvlib.Props.ChainConfig.aoi_inferred",
    "Pvlib.Props.ChainConfig.aoi_inferred_refused",
    "Pvlib.Props.ChainConfig.aoi_named",
    "Pvlib.Props.ChainConfig.aoi_named_refused",
    "Pvlib.Props.ChainConfig.spectral_cases",
    "Pvlib.Props.ChainConfig.losses_cases",
    "Pvlib.Props.ChainConfig.temp_inferred",
    "Pvlib.Props.ChainConfig.temp_named",
    "Pvlib.Props.ChainConfig.temp_refused_kept",
    "Pvlib.Props.ChainConfig.temp_unknown",
    "Pvlib.Props.ChainConfig.ac_inferred",
    "Pvlib.Props.ChainConfig.ac_named",
    "Pvlib.Props.ChainConfig.names_case",
    "Pvlib.Props.ChainConfig.aoi_inferred_computes",
    "Pvlib.Props.ChainConfig.temp_accepted_computes"
   ],
   "note": ""
  },
  {
   "property": "C92",
   "status": "proved",
   "theorems": [
    "Pvlib.Props.ChainConfig.chain_iff",
    "Pvlib.Props.ChainConfig.presets",
    "Pvlib.Props.ChainConfig.pvwatts_preset",
    "Pvlib.Props.ChainConfig.sapm_preset",
    "Pvlib.Props.ChainConfig.orientation_cases"
   ],
   "note": ""
  },
  {
   "property": "C93",
   "status": "proved",
   "theorems": [
    "Pvlib.Props.ChainRun.list_as_tuple",
    "Pvlib.Props.ChainRun.run_model_accepts",
    "Pvlib.Props.ChainRun.run_model_refuses",
    "Pvlib.Props.ChainRun.run_poa_accepts",
    "Pvlib.Props.ChainRun.run_eff_accepts",
    "Pvlib.Props.ChainRun.run_strict_refuses",
    "Pvlib.Props.ChainRun.run_missing_columns"
   ],
   "note": ""
  },
  {
   "property": "C94",
   "status": "proved",
   "theorems": [
    "Pvlib.Props.ChainRun.run_model_fresh",
    "Pvlib.Props.ChainRun.run_poa_fresh",
    "Pvlib.Props.ChainRun.run_eff_fresh",
    "Pvlib.Props.ChainRun.complete_tuple_fresh",
    "Pvlib.Props.ChainRun.complete_frame_history",
    "Pvlib.Props.ChainRun.completed_frame"
   ],
   "note": ""
  },
  {
   "property": "C95",
   "status": "proved",
   "theorems": [
    "Pvlib.Props.ChainArrays.run_model_array",
    "Pvlib.Props.ChainArrays.run_poa_array",
    "Pvlib.Props.ChainArrays.run_eff_array",
    "Pvlib.Props.ChainArrays.run_ac"
   ],
   "note": ""
  },
  {
   "property": "C96",
   "status": "proved",
   "theorems": [
    "Pvlib.Props.ChainArrays.run_shapes"
   ],
   "note": ""
  },
  {
   "property": "C97",
   "status": "proved",
   "theorems": [
    "Pvlib.Props.ChainFacts.array_independent",
    "Pvlib.Props.ChainFacts.container_irrelevant"
   ],
   "note": ""
  },
  {
   "property": "C98",
   "status": "proved",
   "theorems": [
    "Pvlib.Props.ChainFacts.poa_entry_agrees",
    "Pvlib.Props.ChainFacts.eff_entry_agrees"
   ],
   "note": ""
  },
  {
   "property": "C99",
   "status": "proved",
   "theorems": [
    "Pvlib.Props.ChainFacts.pvwatts_ac_range",
    "Pvlib.Props.ChainFacts.sandia_ac_range",
    "Pvlib.Props.ChainFacts.pvwatts_dc_value"
   ],
   "note": ""
  },
  {
   "property": "C100",
   "status": "proved",
   "theorems": [
    "Pvlib.Props.ChainTotal.run_eff_total",
    "Pvlib.Props.ChainTotal.run_poa_total",
    "Pvlib.Props.ChainTotal.run_model_total",
    "Pvlib.Props.ChainTotal.pvwatts_chain_runs",
    "Pvlib.Props.ChainTotal.sapm_chain_runs"
   ],
   "note": ""
  },
  {
   "property": "C101",
   "status": "proved",
   "theorems": [
    "Pvlib.Props.Clearsky.ineichen_formula",
    "Pvlib.Props.Clearsky.ineichen_night",
    "Pvlib.Props.Clearsky.ineichen_nan",
    "Pvlib.Props.Clearsky.ineichen_closure",
    "Pvlib.Props.Clearsky.ineichen_dhi_negative",
    "Pvlib.Props.Clearsky.ineichen_antitone",
    "Pvlib.Props.Clearsky.ineichen_upper",
    "Pvlib.Props.Clearsky.ineichen_scale"
   ],
   "note": ""
  },
  {
   "property": "C102",
   "status": "proved",
   "theorems": [
    "Pvlib.Props.ClearskySolis.haurwitz_formula",
    "Pvlib.Props.ClearskySolis.haurwitz_range",
    "Pvlib.Props.ClearskySolis.haurwitz_antitone",
    "Pvlib.Props.ClearskySolis.haurwitz_nan"
   ],
   "note": ""
  },
  {
   "property": "C103",
   "status": "proved",
   "theorems": [
    "Pvlib.Props.ClearskySolis.solis_formula",
    "Pvlib.Props.ClearskySolis.solis_water_floor",
    "Pvlib.Props.ClearskySolis.solis_nan",
    "Pvlib.Props.ClearskySolis.solis_scale",
    "Pvlib.Props.ClearskySolis.solis_range",
    "Pvlib.Props.ClearskySolis.solis_monotone"
   ],
   "note": ""
  },
  {
   "property": "C104",
   "status": "proved",
   "theorems": [
    "Pvlib.Props.ClearskyBird.transmittances",
    "Pvlib.Props.ClearskyBird.rayleigh_exceeds_one",
    "Pvlib.Props.ClearskyBird.bird_formula",
    "Pvlib.Props.ClearskyBird.bird_closure",
    "Pvlib.Props.ClearskyBird.bird_night",
    "Pvlib.Props.ClearskyBird.bird_nan"
   ],
   "note": ""
  },
  {
   "property": "C105",
   "status": "proved",
   "theorems": [
    "Pvlib.Props.Linke.month_middles",
    "Pvlib.Props.Linke.turbidity_linear",
    "Pvlib.Props.Linke.day_covered",
    "Pvlib.Props.Linke.turbidity_at_middle",
    "Pvlib.Props.Linke.lookup_spec",
    "Pvlib.Props.Linke.lookup_error"
   ],
   "note": ""
  },
  {
   "property": "C106",
   "status": "proved",
   "theorems": [
    "Pvlib.Props.ClearskyDetect.detect_explicit",
    "Pvlib.Props.ClearskyDetect.detect_infer",
    "Pvlib.Props.ClearskyDetect.detect_no_iterations",
    "Pvlib.Props.ClearskyDetect.thresholds"
   ],
   "note": ""
  },
  {
   "property": "C107",
   "status": "proved",
   "theorems": [
    "Pvlib.Props.ClearskyDetect.detection_spec",
    "Pvlib.Props.ClearskyDetect.nan_not_clear",
    "Pvlib.Props.ClearskyDetect.nan_sample_not_clear",
    "Pvlib.Props.ClearskyDetect.alpha_least_squares",
    "Pvlib.Props.ClearskyDetect.detect_total",
    "Pvlib.Props.ClearskyDetect.self_detect",
    "Pvlib.Props.ClearskyDetect.window_finite",
    "Pvlib.Props.ClearskyDetect.detect_returns",
    "Pvlib.Props.ClearskyDetect.window_real"
   ],
   "note": ""
  },
  {
   "property": "C108",
   "status": "proved",
   "theorems": [
    "Pvlib.Props.SolarGeometry.zenith_angle",
    "Pvlib.Props.SolarGeometry.zenith_noon",
    "Pvlib.Props.SolarGeometry.zenith_symmetric",
    "Pvlib.Props.SolarGeometry.zenith_nan",
    "Pvlib.Props.SolarGeometry.azimuth_range",
    "Pvlib.Props.SolarGeometry.azimuth_exact",
    "Pvlib.Props.SolarGeometry.azimuth_approx",
    "Pvlib.Props.SolarGeometry.azimuth_noon_south",
    "Pvlib.Props.SolarGeometry.azimuth_noon_wrong",
    "Pvlib.Props.SolarGeometry.azimuth_mirror",
    "Pvlib.Props.SolarGeometry.azimuth_unwrapped",
    "Pvlib.Props.SolarGeometry.azimuth_nan"
   ],
   "note": ""
  },
  {
   "property": "C109",
   "status": "proved",
   "theorems": [
    "Pvlib.Props.SolarGeometry.cooper_formula",
    "Pvlib.Props.SolarGeometry.cooper_range",
    "Pvlib.Props.SolarGeometry.cooper_seasons",
    "Pvlib.Props.SolarGeometry.spencer_range",
    "Pvlib.Props.SolarGeometry.eot_spencer_range",
    "Pvlib.Props.SolarGeometry.eot_pvcdrom_range",
    "Pvlib.Props.SolarGeometry.yearly",
    "Pvlib.Props.SolarGeometry.noon_zenith_pos"
   ],
   "note": ""
  },
  {
   "property": "C110",
   "status": "proved",
   "theorems": [
    "Pvlib.Props.SolarLocal.naive_refused",
    "Pvlib.Props.SolarLocal.hour_angle_fixed",
    "Pvlib.Props.SolarLocal.hour_angle_zone",
    "Pvlib.Props.SolarLocal.hour_angle_ordinary_day",
    "Pvlib.Props.SolarLocal.hour_angle_dst_day",
    "Pvlib.Props.SolarLocal.hour_angle_skipped_midnight",
    "Pvlib.Props.SolarLocal.hour_angle_repeated_midnight",
    "Pvlib.Props.SolarLocal.hour_angle_zones_agree"
   ],
   "note": ""
  },
  {
   "property": "C111",
   "status": "proved",
   "theorems": [
    "Pvlib.Props.SolarLocal.sunset_angle",
    "Pvlib.Props.SolarLocal.rise_set_transit",
    "Pvlib.Props.SolarLocal.rise_set_polar",
    "Pvlib.Props.SolarLocal.equinox_day_length",
    "Pvlib.Props.SolarLocal.rise_set_dst_day",
    "Pvlib.Props.SolarLocal.rise_set_raises",
    "Pvlib.Props.SolarLocal.rise_set_elementwise",
    "Pvlib.Props.SolarLocal.transit_hour_angle"
   ],
   "note": ""
  },
  {
   "property": "C112",
   "status": "proved",
   "theorems": [
    "Pvlib.Props.Ephemeris.epoch_days",
    "Pvlib.Props.Ephemeris.epoch_days_outside",
    "Pvlib.Props.Ephemeris.kepler",
    "Pvlib.Props.Ephemeris.nat_stops_kepler",
    "Pvlib.Props.Ephemeris.true_anomaly",
    "Pvlib.Props.Ephemeris.equatorial",
    "Pvlib.Props.Ephemeris.horizon_coords",
    "Pvlib.Props.Ephemeris.refraction",
    "Pvlib.Props.Ephemeris.row_spec",
    "Pvlib.Props.Ephemeris.ephemeris_spec",
    "Pvlib.Props.Ephemeris.civil_ok",
    "Pvlib.Props.Ephemeris.sidereal_longitude",
    "Pvlib.Props.Ephemeris.ephemeris_empty",
    "Pvlib.Props.Ephemeris.ephemeris_nat"
   ],
   "note": ""
  },
  {
   "property": "C113",
   "status": "proved",
   "theorems": [
    "Pvlib.Props.SpaThreads.threaded_eq_numpy",
    "Pvlib.Props.SpaThreads.threaded_in_bounds",
    "Pvlib.Props.SpaThreads.numpy_shape",
    "Pvlib.Props.SpaThreads.threaded_no_race",
    "Pvlib.Props.SpaThreads.thread_count",
    "Pvlib.Props.SpaThreads.chunks_even",
    "Pvlib.Props.SpaThreads.interleaving_exists",
    "Pvlib.Props.SpaThreads.chunk_sum"
   ],
   "note": ""
  },
  {
   "property": "C114",
   "status": "proved",
   "theorems": [
    "Pvlib.Props.SpaDeltat.deltat_spec",
    "Pvlib.Props.SpaDeltat.deltat_jump",
    "Pvlib.Props.SpaDeltat.boundaries_eq",
    "Pvlib.Props.SpaDeltat.deltat_finite",
    "Pvlib.Props.SpaDeltat.deltat_nan_year",
    "Pvlib.Props.SpaDeltat.deltat_modern",
    "Pvlib.Props.SpaDeltat.deltat_modern_increasing",
    "Pvlib.Props.SpaDeltat.deltat_warns_iff"
   ],
   "note": ""
  },
  {
   "property": "C115",
   "status": "proved",
   "theorems": [
    "Pvlib.Props.SpaJulian.jd_next_day",
    "Pvlib.Props.SpaJulian.jd_within_day",
    "Pvlib.Props.SpaJulian.jd_epoch",
    "Pvlib.Props.SpaJulian.jd_unix",
    "Pvlib.Props.SpaJulian.jd_next_day_julian",
    "Pvlib.Props.SpaJulian.jd_zero",
    "Pvlib.Props.SpaJulian.jd_reform_glitch"
   ],
   "note": ""
  },
  {
   "property": "C116",
   "status": "proved",
   "theorems": [
    "Pvlib.Props.SpaBounds.distance_range",
    "Pvlib.Props.SpaBounds.distance_range_century",
    "Pvlib.Props.SpaBounds.spa_distance_range",
    "Pvlib.Props.SpaBounds.longitude_range",
    "Pvlib.Props.SpaBounds.latitude_bound",
    "Pvlib.Props.SpaBounds.nutation_bound",
    "Pvlib.Props.SpaBounds.nutation_rows",
    "Pvlib.Props.SpaBounds.obliquity_range"
   ],
   "note": ""
  },
  {
   "property": "C117",
   "status": "proved",
   "theorems": [
    "Pvlib.Props.SpaGeometry.equatorial_coordinates",
    "Pvlib.Props.SpaGeometry.eclToEq_unit",
    "Pvlib.Props.SpaPosition.geo_spec"
   ],
   "note": ""
  },
  {
   "property": "C118",
   "status": "proved",
   "theorems": [
    "Pvlib.Props.SpaGeometry.observer_point",
    "Pvlib.Props.SpaGeometry.parallax_direction",
    "Pvlib.Props.SpaGeometry.horizon_direction",
    "Pvlib.Props.SpaPosition.observer_unique",
    "Pvlib.Props.SpaPosition.spa_direction"
   ],
   "note": ""
  },
  {
   "property": "C119",
   "status": "proved",
   "theorems": [
    "Pvlib.Props.SpaPosition.spa_total",
    "Pvlib.Props.SpaPosition.eot_range",
    "Pvlib.Props.SpaPosition.refraction_eval",
    "Pvlib.Props.SpaPosition.refraction_pos",
    "Pvlib.Props.SpaPosition.refraction_below",
    "Pvlib.Props.SpaPosition.refraction_singular",
    "Pvlib.Props.SpaPosition.refraction_zenith_neg",
    "Pvlib.Props.SpaPosition.apparent"
   ],
   "note": ""
  },
  {
   "property": "C120",
   "status": "proved",
   "theorems": [
    "Pvlib.Props.SpaRiseSet.accepts_iff",
    "Pvlib.Props.SpaRiseSet.h0_crosses",
    "Pvlib.Props.SpaRiseSet.h0_nan_iff",
    "Pvlib.Props.SpaRiseSet.unwrap_recovers",
    "Pvlib.Props.SpaRiseSet.unwrap_small",
    "Pvlib.Props.SpaRiseSet.unwrap_loses",
    "Pvlib.Props.SpaRiseSet.times_spec",
    "Pvlib.Props.SpaRiseSet.spa_rise_set",
    "Pvlib.Props.SpaRiseSet.no_polar_day"
   ],
   "note": ""
  },
  {
   "property": "C121",
   "status": "proved",
   "theorems": [
    "Pvlib.Props.SolarDispatch.mode_is_last_how",
    "Pvlib.Props.SolarDispatch.import_ok",
    "Pvlib.Props.SolarDispatch.import_raises_iff",
    "Pvlib.Props.SolarDispatch.import_unknown",
    "Pvlib.Props.SolarDispatch.import_idempotent",
    "Pvlib.Props.SolarDispatch.import_env",
    "Pvlib.Props.SolarDispatch.sound_history"
   ],
   "note": ""
  },
  {
   "property": "C122",
   "status": "proved",
   "theorems": [
    "Pvlib.Props.SolarDispatch.runs_eq",
    "Pvlib.Props.SolarDispatch.spa_python_spec",
    "Pvlib.Props.SolarDispatch.numba_numpy_agree",
    "Pvlib.Props.SolarDispatch.unknown_method",
    "Pvlib.Props.SolarDispatch.method_case",
    "Pvlib.Props.SolarDispatch.defaults",
    "Pvlib.Props.SolarDispatch.zone_irrelevant",
    "Pvlib.Props.SolarDispatch.frame_shape",
    "Pvlib.Props.SolarDispatch.nrel_c_arguments",
    "Pvlib.Props.SolarDispatch.refract_zero",
    "Pvlib.Props.SolarDispatch.numpy_total",
    "Pvlib.Props.SolarDispatch.pyephem_rows",
    "Pvlib.Props.SolarDispatch.ephemeris_rows"
   ],
   "note": ""
  },
  {
   "property": "C123",
   "status": "proved",
   "theorems": [
    "Pvlib.Props.SolarDispatch.localDate_spec",
    "Pvlib.Props.SolarDispatch.rise_set_naive",
    "Pvlib.Props.SolarDispatch.rise_set_spec",
    "Pvlib.Props.SolarDispatch.same_date_same_answer",
    "Pvlib.Props.SolarDispatch.rise_set_real"
   ],
   "note": ""
  },
  {
   "property": "C124",
   "status": "proved",
   "theorems": [
    "Pvlib.Props.SolarDispatch.distance_spec",
    "Pvlib.Props.SolarDispatch.pyRound_near",
    "Pvlib.Props.SolarDispatch.pyRound_tie",
    "Pvlib.Props.SolarDispatch.pyRound_nearest",
    "Pvlib.Props.SolarDispatch.ephem_time",
    "Pvlib.Props.SolarDispatch.ephem_rise_set_raises",
    "Pvlib.Props.SolarDispatch.ephem_rise_set"
   ],
   "note": ""
  },
  {
   "property": "C125",
   "status": "proved",
   "theorems": [
    "Pvlib.Props.BifacialShadow.fraction_range",
    "Pvlib.Props.BifacialShadow.fraction_exact",
    "Pvlib.Props.BifacialShadow.fraction_part",
    "Pvlib.Props.BifacialShadow.fraction_formula",
    "Pvlib.Props.BifacialShadow.fraction_closed_form",
    "Pvlib.Props.BifacialShadow.default_rows_enough",
    "Pvlib.Props.BifacialShadow.default_rows_too_few",
    "Pvlib.Props.BifacialShadow.fraction_nan",
    "Pvlib.Props.BifacialShadow.shadowPart_fin",
    "Pvlib.Props.BifacialShadow.unshaded_fin"
   ],
   "note": ""
  },
  {
   "property": "C126",
   "status": "proved",
   "theorems": [
    "Pvlib.Props.BifacialRow.row_sky_view",
    "Pvlib.Props.BifacialRow.row_ground_view",
    "Pvlib.Props.BifacialRow.row_views_sum",
    "Pvlib.Props.BifacialRow.row_views_monotone",
    "Pvlib.Props.BifacialRow.row_sky_masking"
   ],
   "note": ""
  },
  {
   "property": "C127",
   "status": "proved",
   "theorems": [
    "Pvlib.Props.BifacialRow.row_sky_mean",
    "Pvlib.Props.BifacialRow.row_sky_negative_tilt",
    "Pvlib.Props.BifacialRow.row_sky_mean_range",
    "Pvlib.Props.BifacialRow.row_sky_additive",
    "Pvlib.Props.BifacialRow.row_sky_swapped",
    "Pvlib.Props.BifacialRow.integ_fin"
   ],
   "note": ""
  },
  {
   "property": "C128",
   "status": "proved",
   "theorems": [
    "Pvlib.Props.BifacialGround.ground_sky_exact",
    "Pvlib.Props.BifacialGround.ground_sky_range",
    "Pvlib.Props.BifacialGround.blocked_iff"
   ],
   "note": ""
  },
  {
   "property": "C129",
   "status": "proved",
   "theorems": [
    "Pvlib.Props.BifacialStrings.string_ge",
    "Pvlib.Props.BifacialStrings.crossed_unobstructed_le",
    "Pvlib.Props.BifacialStrings.hottel",
    "Pvlib.Props.BifacialStrings.ground_sky_integ_nonneg",
    "Pvlib.Props.BifacialStrings.row_ground_additive",
    "Pvlib.Props.BifacialStrings.row_ground_additive_row",
    "Pvlib.Props.BifacialStrings.row_ground_telescopes",
    "Pvlib.Props.BifacialStrings.row_ground_integ_nonneg",
    "Pvlib.Props.BifacialStrings.row_ground_whole"
   ],
   "note": ""
  },
  {
   "property": "C130",
   "status": "proved",
   "theorems": [
    "Pvlib.Props.BifacialStrings.ground_sky_scale",
    "Pvlib.Props.BifacialStrings.row_ground_scale",
    "Pvlib.Props.BifacialStrings.unshaded_scale",
    "Pvlib.Props.BifacialStrings.maxRows_scale",
    "Pvlib.Props.BifacialStrings.sheds_scale"
   ],
   "note": ""
  },
  {
   "property": "C131",
   "status": "proved",
   "theorems": [
    "Pvlib.Props.Sheds.shaded_range",
    "Pvlib.Props.Sheds.backside_normal",
    "Pvlib.Props.Sheds.direct_fin",
    "Pvlib.Props.Sheds.ground_fraction",
    "Pvlib.Props.Sheds.beam_conserved"
   ],
   "note": ""
  },
  {
   "property": "C132",
   "status": "proved",
   "theorems": [
    "Pvlib.Props.Sheds.side_nonneg",
    "Pvlib.Props.Sheds.side_dark",
    "Pvlib.Props.Sheds.circumsolar_conserved"
   ],
   "note": ""
  },
  {
   "property": "C133",
   "status": "proved",
   "theorems": [
    "Pvlib.Props.Sheds.model_choice",
    "Pvlib.Props.Sheds.both_sides",
    "Pvlib.Props.Sheds.monofacial"
   ],
   "note": ""
  },
  {
   "property": "C134",
   "status": "proved",
   "theorems": [
    "Pvlib.Props.Ants.segments_spec",
    "Pvlib.Props.Ants.shaded_value",
    "Pvlib.Props.Ants.shaded_partition",
    "Pvlib.Props.Ants.shaded_order",
    "Pvlib.Props.Ants.side_nonneg",
    "Pvlib.Props.Ants.direct_mean"
   ],
   "note": ""
  },
  {
   "property": "C135",
   "status": "proved",
   "theorems": [
    "Pvlib.Props.Ants.sky_model_errors",
    "Pvlib.Props.Ants.sky_model_isotropic",
    "Pvlib.Props.Ants.sky_model_moves",
    "Pvlib.Props.Ants.wrap_spec",
    "Pvlib.Props.Ants.back_normal",
    "Pvlib.Props.Ants.slope_zero",
    "Pvlib.Props.Ants.result_shape",
    "Pvlib.Props.Ants.ground_light",
    "Pvlib.Props.Ants.sloped_call"
   ],
   "note": ""
  },
  {
   "property": "C136",
   "status": "proved",
   "theorems": [
    "Pvlib.Props.Ants.mismatch_value",
    "Pvlib.Props.Ants.mismatch_fill_factor",
    "Pvlib.Props.Ants.mismatch_default",
    "Pvlib.Props.Ants.mismatch_zero_ff"
   ],
   "note": ""
  },
  {
   "property": "C137",
   "status": "proved",
   "theorems": [
    "Pvlib.Props.Reverse.poaFromGhi_is_total",
    "Pvlib.Props.Reverse.poaFromGhi_real",
    "Pvlib.Props.Reverse.forward_spec",
    "Pvlib.Props.Reverse.ghi_from_poa_error_iff",
    "Pvlib.Props.Reverse.ghi_from_poa_nan",
    "Pvlib.Props.Reverse.ghi_from_poa_dark",
    "Pvlib.Props.Reverse.ghi_from_poa_infeasible",
    "Pvlib.Props.Reverse.ghi_from_poa_feasible",
    "Pvlib.Props.Reverse.ghi_from_poa_default_converges",
    "Pvlib.Props.Reverse.forward_horizontal",
    "Pvlib.Props.Reverse.ghi_from_poa_horizontal"
   ],
   "note": ""
  },
  {
   "property": "C138",
   "status": "proved",
   "theorems": [
    "Pvlib.Props.GtiFull.dirindex_not_neg",
    "Pvlib.Props.GtiFull.dirindex_value",
    "Pvlib.Props.GtiFull.dirindex_clear",
    "Pvlib.Props.GtiFull.dirindex_range",
    "Pvlib.Props.GtiFull.dirindex_low_sun"
   ],
   "note": ""
  },
  {
   "property": "C139",
   "status": "proved",
   "theorems": [
    "Pvlib.Props.GtiFull.gti_dirint_no_front",
    "Pvlib.Props.GtiFull.gti_dirint_returns",
    "Pvlib.Props.GtiFull.gti_dirint_bad_model",
    "Pvlib.Props.GtiFull.gti_dirint_front",
    "Pvlib.Props.GtiFull.gti_dirint_fit",
    "Pvlib.Props.GtiFull.gti_pass_formula",
    "Pvlib.Props.GtiFull.gti_dirint_back_off",
    "Pvlib.Props.GtiFull.gti_dirint_back_nan",
    "Pvlib.Props.GtiFull.gti_dirint_back_dni",
    "Pvlib.Props.GtiFull.gti_dirint_back_consistent",
    "Pvlib.Props.GtiFull.gti_back_kt_morning",
    "Pvlib.Props.GtiFull.gti_back_kt_afternoon",
    "Pvlib.Props.GtiFull.gti_back_dni_formula"
   ],
   "note": ""
  },
  {
   "property": "C140",
   "status": "proved",
   "theorems": [
    "Pvlib.Props.NumDiff.ends_nan",
    "Pvlib.Props.NumDiff.first_derivative_exact",
    "Pvlib.Props.NumDiff.second_derivative_equal_spacing",
    "Pvlib.Props.NumDiff.second_derivative_of_constant"
   ],
   "note": ""
  },
  {
   "property": "C141",
   "status": "proved",
   "theorems": [
    "Pvlib.Props.Rectify.rectified_points",
    "Pvlib.Props.Rectify.rectified_increasing",
    "Pvlib.Props.Rectify.rectified_first_quadrant",
    "Pvlib.Props.Rectify.rectified_order_irrelevant",
    "Pvlib.Props.Rectify.rectified_idempotent"
   ],
   "note": ""
  },
  {
   "property": "C142",
   "status": "proved",
   "theorems": [
    "Pvlib.Props.Schumaker.slopes",
    "Pvlib.Props.Schumaker.spline_layout",
    "Pvlib.Props.Schumaker.knots_increasing",
    "Pvlib.Props.Schumaker.data_points_kept",
    "Pvlib.Props.Schumaker.slopes_bounded",
    "Pvlib.Props.Schumaker.pieces_monotone",
    "Pvlib.Props.Schumaker.line_reproduced",
    "Pvlib.Props.Schumaker.knot_interval_interpolates_iff",
    "Pvlib.Props.Schumaker.spline_jumps"
   ],
   "note": ""
  },
  {
   "property": "C143",
   "status": "proved",
   "theorems": [
    "Pvlib.Props.Astm.good_lib_exists",
    "Pvlib.Props.Astm.fit_exact",
    "Pvlib.Props.Astm.result_structure",
    "Pvlib.Props.Astm.power_identities",
    "Pvlib.Props.Astm.measured_voc_isc",
    "Pvlib.Props.Astm.extrapolated_voc",
    "Pvlib.Props.Astm.extrapolated_isc",
    "Pvlib.Props.Astm.max_power_exact",
    "Pvlib.Props.Astm.succeeds"
   ],
   "note": ""
  },
  {
   "property": "C144",
   "status": "proved",
   "theorems": [
    "Pvlib.Props.SandiaSimple.good_lib_exists",
    "Pvlib.Props.SandiaSimple.linear_part_errors",
    "Pvlib.Props.SandiaSimple.linear_part_not_nan",
    "Pvlib.Props.SandiaSimple.no_exponential_part",
    "Pvlib.Props.SandiaSimple.returned_parameters",
    "Pvlib.Props.SandiaSimple.exact_recovery"
   ],
   "note": ""
  },
  {
   "property": "C145",
   "status": "proved",
   "theorems": [
    "Pvlib.Props.Cocontent.input_errors",
    "Pvlib.Props.Cocontent.cocontent_is_integral",
    "Pvlib.Props.Cocontent.cocontent_closed_form",
    "Pvlib.Props.Cocontent.regression_exact",
    "Pvlib.Props.Cocontent.params_exact",
    "Pvlib.Props.Cocontent.recovers_cell",
    "Pvlib.Props.Cocontent.io_error",
    "Pvlib.Props.Cocontent.iph_misses_isc"
   ],
   "note": ""
  },
  {
   "property": "C146",
   "status": "proved",
   "theorems": [
    "Pvlib.Props.SdmSteps.goodNum_exists",
    "Pvlib.Props.SdmSteps.iph_meets_isc",
    "Pvlib.Props.SdmSteps.rs_meets_mpp",
    "Pvlib.Props.SdmSteps.rsh_fixed_iff",
    "Pvlib.Props.SdmSteps.rsh_update_stationary",
    "Pvlib.Props.SdmSteps.rsh_update_passes",
    "Pvlib.Props.SdmSteps.io_step",
    "Pvlib.Props.SdmSteps.loop_passes",
    "Pvlib.Props.SdmSteps.io_passes",
    "Pvlib.Props.SdmSteps.npMax_nan",
    "Pvlib.Props.SdmSteps.npMax_ge",
    "Pvlib.Props.SdmSteps.nan_stops_all",
    "Pvlib.Props.SdmSteps.io_tolerance",
    "Pvlib.Props.SdmSteps.overflow_branch_wrong",
    "Pvlib.Props.SdmSteps.overflow_misses_mpp",
    "Pvlib.Props.SdmSteps.filter_iff",
    "Pvlib.Props.SdmSteps.filter_nan"
   ],
   "note": ""
  },
  {
   "property": "C147",
   "status": "proved",
   "theorems": [
    "Pvlib.Props.SdmLoop.refine_step",
    "Pvlib.Props.SdmLoop.loop_passes",
    "Pvlib.Props.SdmLoop.convergence_meaning",
    "Pvlib.Props.SdmLoop.initial_io",
    "Pvlib.Props.SdmLoop.dropped_forever",
    "Pvlib.Props.SdmLoop.loop_result",
    "Pvlib.Props.SdmLoop.no_iterations",
    "Pvlib.Props.SdmLoop.initial_values",
    "Pvlib.Props.SdmLoop.placeholder_refined",
    "Pvlib.Props.SdmLoop.desoto_result",
    "Pvlib.Props.SdmLoop.pvsyst_result"
   ],
   "note": ""
  },
  {
   "property": "C148",
   "status": "proved",
   "theorems": [
    "Pvlib.Props.SdmExtract.goodRlm_exists",
    "Pvlib.Props.SdmExtract.desoto_extraction",
    "Pvlib.Props.SdmExtract.egFactor_bounds",
    "Pvlib.Props.SdmExtract.one_irradiance_raises",
    "Pvlib.Props.SdmExtract.pvsyst_extraction",
    "Pvlib.Props.SdmExtract.shunt_identified",
    "Pvlib.Props.SdmExtract.desoto_diode",
    "Pvlib.Props.SdmExtract.pvsyst_gamma",
    "Pvlib.Props.SdmExtract.shunt_start"
   ],
   "note": ""
  },
  {
   "property": "C149",
   "status": "proved",
   "theorems": [
    "Pvlib.Props.SdmDesoto.curve_exists",
    "Pvlib.Props.SdmDesoto.system_iff",
    "Pvlib.Props.SdmDesoto.guess_ok",
    "Pvlib.Props.SdmDesoto.guess_value",
    "Pvlib.Props.SdmDesoto.outcome",
    "Pvlib.Props.SdmDesoto.start_values"
   ],
   "note": ""
  },
  {
   "property": "C150",
   "status": "proved",
   "theorems": [
    "Pvlib.Props.SdmDesoto.batzelis",
    "Pvlib.Props.SdmDesoto.batzelis_points",
    "Pvlib.Props.SdmDesoto.batzelis_scaling"
   ],
   "note": ""
  },
  {
   "property": "C151",
   "status": "proved",
   "theorems": [
    "Pvlib.Props.SdmIec.tempco_exact",
    "Pvlib.Props.SdmIec.shunt_exact",
    "Pvlib.Props.SdmIec.series_exact",
    "Pvlib.Props.SdmIec.gamma_exact",
    "Pvlib.Props.SdmIec.saturation_exact",
    "Pvlib.Props.SdmIec.photocurrent_exact",
    "Pvlib.Props.SdmIec.gamma_post_exact",
    "Pvlib.Props.SdmIec.iec_outcome",
    "Pvlib.Props.SdmIec.iec_steps"
   ],
   "note": ""
  },
  {
   "property": "C152",
   "status": "proved",
   "theorems": [
    "Pvlib.Props.SdmCoeff.difference_error",
    "Pvlib.Props.SdmCoeff.temperature_coeff",
    "Pvlib.Props.SdmCoeff.temperature_coeff_error",
    "Pvlib.Props.SdmCoeff.temperature_coeff_raises",
    "Pvlib.Props.SdmCoeff.roots_exist"
   ],
   "note": ""
  },
  {
   "property": "C153",
   "status": "proved",
   "theorems": [
    "Pvlib.Props.SdmCoeff.cec_sam"
   ],
   "note": ""
  },
  {
   "property": "C154",
   "status": "proved",
   "theorems": [
    "Pvlib.Props.Spectrl2.table",
    "Pvlib.Props.Spectrl2.physical_row",
    "Pvlib.Props.Spectrl2.call",
    "Pvlib.Props.Spectrl2.day_required",
    "Pvlib.Props.Spectrl2.attenuation",
    "Pvlib.Props.Spectrl2.forward_negative"
   ],
   "note": ""
  },
  {
   "property": "C155",
   "status": "proved",
   "theorems": [
    "Pvlib.Props.Panond.reads",
    "Pvlib.Props.Panond.unique",
    "Pvlib.Props.Panond.last_line_ignored",
    "Pvlib.Props.Panond.second_equals",
    "Pvlib.Props.Panond.values",
    "Pvlib.Props.Panond.blank_line_raises",
    "Pvlib.Props.Panond.blank_line_misfiles"
   ],
   "note": "Text is a list of characters; float() and int() are arbitrary partial functions."
  },
  {
   "property": "C156",
   "status": "proved",
   "theorems": [
    "Pvlib.Props.Tmy3.naive",
    "Pvlib.Props.Tmy3.coerced",
    "Pvlib.Props.Tmy3.typical_year",
    "Pvlib.Props.Tmy3.typical_increasing",
    "Pvlib.Props.Tmy3.last_row_year",
    "Pvlib.Props.Tmy3.bad_date"
   ],
   "note": ""
  },
  {
   "property": "C157",
   "status": "proved",
   "theorems": [
    "Pvlib.Props.StationIndex.tmy2_index",
    "Pvlib.Props.StationIndex.tmy2_leap_day",
    "Pvlib.Props.StationIndex.tmy2_typical",
    "Pvlib.Props.StationIndex.fields_contiguous",
    "Pvlib.Props.StationIndex.tmy2_layout",
    "Pvlib.Props.StationIndex.header_angle",
    "Pvlib.Props.StationIndex.epw_index",
    "Pvlib.Props.StationIndex.epw_leap_day",
    "Pvlib.Props.StationIndex.epw_typical",
    "Pvlib.Props.StationIndex.localized"
   ],
   "note": ""
  },
  {
   "property": "C158",
   "status": "proved",
   "theorems": [
    "Pvlib.Props.StationIndex.srml_index",
    "Pvlib.Props.StationIndex.srml_half_hourly",
    "Pvlib.Props.StationIndex.srml_coarse",
    "Pvlib.Props.StationIndex.srml_zone",
    "Pvlib.Props.StationIndex.srml_short"
   ],
   "note": ""
  },
  {
   "property": "C159",
   "status": "proved",
   "theorems": [
    "Pvlib.Props.StationIndex.day_of_year_index",
    "Pvlib.Props.StationIndex.networks_agree",
    "Pvlib.Props.StationIndex.crn_index",
    "Pvlib.Props.StationIndex.bsrn_index"
   ],
   "note": ""
  },
  {
   "property": "C160",
   "status": "proved",
   "theorems": [
    "Pvlib.Props.IoTables.srml_table",
    "Pvlib.Props.IoTables.names_distinct",
    "Pvlib.Props.IoTables.srml_names"
   ],
   "note": ""
  },
  {
   "property": "C161",
   "status": "proved",
   "theorems": [
    "Pvlib.Props.IoTables.surfrad_missing",
    "Pvlib.Props.IoTables.bsrn_missing",
    "Pvlib.Props.IoTables.crn_missing",
    "Pvlib.Props.IoTables.layouts",
    "Pvlib.Props.IoTables.layout_names"
   ],
   "note": ""
  },
  {
   "property": "C162",
   "status": "proved",
   "theorems": [
    "Pvlib.Props.IoTables.days_requested",
    "Pvlib.Props.IoTables.day_files_distinct",
    "Pvlib.Props.IoTables.months_requested",
    "Pvlib.Props.IoTables.month_files_distinct",
    "Pvlib.Props.IoTables.loop",
    "Pvlib.Props.IoTables.get_days",
    "Pvlib.Props.IoTables.surfrad_ignores_map_variables",
    "Pvlib.Props.IoTables.get_srml",
    "Pvlib.Props.IoTables.get_bsrn"
   ],
   "note": "Servers are arbitrary functions from file names to outcomes."
  },
  {
   "property": "C163",
   "status": "proved",
   "theorems": [
    "Pvlib.Props.IoTables.records_exact",
    "Pvlib.Props.IoTables.missing_record",
    "Pvlib.Props.IoTables.no_records",
    "Pvlib.Props.IoTables.pairs",
    "Pvlib.Props.IoTables.lr0100_row",
    "Pvlib.Props.IoTables.lr0300_row",
    "Pvlib.Props.IoTables.lr0500_row",
    "Pvlib.Props.IoTables.bsrn_layout",
    "Pvlib.Props.IoTables.bsrn_coordinates"
   ],
   "note": ""
  },
  {
   "property": "C164",
   "status": "proved",
   "theorems": [
    "Pvlib.Props.Polling.era5_answer",
    "Pvlib.Props.Polling.era5_timeout",
    "Pvlib.Props.Polling.era5_terminates",
    "Pvlib.Props.Polling.solaranywhere_answer",
    "Pvlib.Props.Polling.solaranywhere_timeout",
    "Pvlib.Props.Polling.solaranywhere_terminates",
    "Pvlib.Props.Polling.solaranywhere_stuck"
   ],
   "note": "Servers and clocks are arbitrary functions."
  },
  {
   "property": "C165",
   "status": "proved",
   "theorems": [
    "Pvlib.Props.Cams.header",
    "Pvlib.Props.Cams.no_column_line_never_ends",
    "Pvlib.Props.Cams.index_subdaily",
    "Pvlib.Props.Cams.index_daily",
    "Pvlib.Props.Cams.index_monthly",
    "Pvlib.Props.Cams.index_unknown_label",
    "Pvlib.Props.Cams.integrated",
    "Pvlib.Props.Cams.mean",
    "Pvlib.Props.Cams.every_step_has_hours"
   ],
   "note": ""
  },
  {
   "property": "C166",
   "status": "proved",
   "theorems": [
    "Pvlib.Props.Pvgis.hourly",
    "Pvlib.Props.Pvgis.hourly_no_notes",
    "Pvlib.Props.Pvgis.hourly_no_header",
    "Pvlib.Props.Pvgis.tmy"
   ],
   "note": ""
  },
  {
   "property": "C167",
   "status": "proved",
   "theorems": [
    "Pvlib.Props.Pvgis.roll",
    "Pvlib.Props.Pvgis.roll_perm",
    "Pvlib.Props.Pvgis.roll_back",
    "Pvlib.Props.Pvgis.coerce_and_roll",
    "Pvlib.Props.Pvgis.same_moment",
    "Pvlib.Props.Pvgis.leap_year_moves",
    "Pvlib.Props.Pvgis.no_zone",
    "Pvlib.Props.Pvgis.leap_day_refused",
    "Pvlib.Props.Pvgis.requested",
    "Pvlib.Props.Pvgis.aspect_direction",
    "Pvlib.Props.Pvgis.horizon_points",
    "Pvlib.Props.Pvgis.horizon_sorted"
   ],
   "note": ""
  },
  {
   "property": "C168",
   "status": "proved",
   "theorems": [
    "Pvlib.Props.Services.solcast",
    "Pvlib.Props.Services.solargis",
    "Pvlib.Props.Services.solargis_clear_tilted",
    "Pvlib.Props.Services.nasa",
    "Pvlib.Props.Services.era5",
    "Pvlib.Props.Services.era5_long_unconverted",
    "Pvlib.Props.Services.merra2",
    "Pvlib.Props.Services.requested_names",
    "Pvlib.Props.Services.era5_requested",
    "Pvlib.Props.Services.psm4_names",
    "Pvlib.Props.Services.meteonorm_table"
   ],
   "note": ""
  },
  {
   "property": "C169",
   "status": "proved",
   "theorems": [
    "Pvlib.Props.Services.moments_respected",
    "Pvlib.Props.Services.meteonorm_ignores_offset",
    "Pvlib.Props.Services.nasa_local_day",
    "Pvlib.Props.Services.solaranywhere_half_range",
    "Pvlib.Props.Services.middles",
    "Pvlib.Props.Services.psm4_index",
    "Pvlib.Props.Services.psm4_no_zone"
   ],
   "note": ""
  },
  {
   "property": "C170",
   "status": "proved",
   "theorems": [
    "Pvlib.Props.Services.acis_cells",
    "Pvlib.Props.Services.acis_grid",
    "Pvlib.Props.Services.acis_altitudes",
    "Pvlib.Props.Services.solargis_resolutions",
    "Pvlib.Props.Services.solaranywhere_meta",
    "Pvlib.Props.Services.solaranywhere_two_colons",
    "Pvlib.Props.Services.solaranywhere_missing",
    "Pvlib.Props.Services.merra2_header",
    "Pvlib.Props.Services.merra2_pairs"
   ],
   "note": ""
  },
  {
   "property": "C171",
   "status": "proved",
   "theorems": [
    "Pvlib.Props.Times.instant_decides",
    "Pvlib.Props.Times.index_elementwise",
    "Pvlib.Props.Times.utc_day_of_year",
    "Pvlib.Props.Times.doy_is_date",
    "Pvlib.Props.Times.array_elementwise",
    "Pvlib.Props.Times.scalar_raises_iff",
    "Pvlib.Props.Times.dateOf_onDay",
    "Pvlib.Props.Times.onDay_dateOf",
    "Pvlib.Props.Times.readings_utc"
   ],
   "note": ""
  },
  {
   "property": "C172",
   "status": "proved",
   "theorems": [
    "Pvlib.Props.Times.doy_is_midnight",
    "Pvlib.Props.Times.doy_elementwise",
    "Pvlib.Props.Times.doy_whole_microseconds",
    "Pvlib.Props.Times.doy_raises_iff",
    "Pvlib.Props.Times.doy_counts_on",
    "Pvlib.Props.Times.doy_round_trip"
   ],
   "note": ""
  },
  {
   "property": "C173",
   "status": "proved",
   "theorems": [
    "Pvlib.Props.Times.localized_unchanged",
    "Pvlib.Props.Times.datetime_first_instant",
    "Pvlib.Props.Times.datetime_in_gap",
    "Pvlib.Props.Times.pandas_unique",
    "Pvlib.Props.Times.pandas_raises_iff"
   ],
   "note": ""
  },
  {
   "property": "C174",
   "status": "proved",
   "theorems": [
    "Pvlib.Props.Times.brentq_exists",
    "Pvlib.Props.Times.calc_time_crossing",
    "Pvlib.Props.Times.calc_time_errors",
    "Pvlib.Props.Times.calc_time_zones"
   ],
   "note": ""
  },
  {
   "property": "C175",
   "status": "proved",
   "theorems": [
    "Pvlib.Props.LocationMethods.init_keeps",
    "Pvlib.Props.LocationMethods.init_altitude",
    "Pvlib.Props.LocationMethods.init_bad_tz",
    "Pvlib.Props.LocationMethods.from_tmy",
    "Pvlib.Props.LocationMethods.from_tmy_numbered",
    "Pvlib.Props.LocationMethods.from_epw",
    "Pvlib.Props.LocationMethods.fractional_tz",
    "Pvlib.Props.LocationMethods.keywords_never"
   ],
   "note": ""
  },
  {
   "property": "C176",
   "status": "proved",
   "theorems": [
    "Pvlib.Props.LocationMethods.solarposition_delegates",
    "Pvlib.Props.LocationMethods.rise_set_refuses",
    "Pvlib.Props.LocationMethods.rise_set_delegates"
   ],
   "note": ""
  },
  {
   "property": "C177",
   "status": "proved",
   "theorems": [
    "Pvlib.Props.LocationMethods.given_position",
    "Pvlib.Props.LocationMethods.computed_position",
    "Pvlib.Props.LocationMethods.ineichen_given",
    "Pvlib.Props.LocationMethods.pressure_ignored",
    "Pvlib.Props.LocationMethods.haurwitz_ignores",
    "Pvlib.Props.LocationMethods.accepted_keywords",
    "Pvlib.Props.LocationMethods.solis_given",
    "Pvlib.Props.LocationMethods.unknown_model",
    "Pvlib.Props.LocationMethods.clearsky_physical"
   ],
   "note": ""
  },
  {
   "property": "C178",
   "status": "proved",
   "theorems": [
    "Pvlib.Props.Fits.goodPolyfit_exists",
    "Pvlib.Props.Fits.fit_recovers",
    "Pvlib.Props.Fits.fit_zero_start",
    "Pvlib.Props.Fits.fit_outcome",
    "Pvlib.Props.Fits.falling_wrong"
   ],
   "note": ""
  },
  {
   "property": "C179",
   "status": "proved",
   "theorems": [
    "Pvlib.Props.Fits.xy_arcs",
    "Pvlib.Props.Fits.xy_one",
    "Pvlib.Props.Fits.xy_shift",
    "Pvlib.Props.Fits.xy_perm",
    "Pvlib.Props.Fits.xy_antimeridian",
    "Pvlib.Props.Fits.xy_nan"
   ],
   "note": ""
  },
  {
   "property": "C180",
   "status": "proved",
   "theorems": [
    "Pvlib.Props.Fits.isCurveFit_exists",
    "Pvlib.Props.Fits.options_override",
    "Pvlib.Props.Fits.adr_inside",
    "Pvlib.Props.Fits.adr_no_efficiency",
    "Pvlib.Props.Fits.adr_start",
    "Pvlib.Props.Fits.adr_weights"
   ],
   "note": ""
  },
  {
   "property": "C181",
   "status": "proved",
   "theorems": [
    "Pvlib.Props.Requests.solcast_request",
    "Pvlib.Props.Requests.solcast_repeated",
    "Pvlib.Props.Requests.solcast_key"
   ],
   "note": ""
  },
  {
   "property": "C182",
   "status": "proved",
   "theorems": [
    "Pvlib.Props.Requests.meteonorm_request",
    "Pvlib.Props.Requests.meteonorm_albedo_ignored",
    "Pvlib.Props.Requests.meteonorm_reply"
   ],
   "note": ""
  },
  {
   "property": "C183",
   "status": "proved",
   "theorems": [
    "Pvlib.Props.Requests.nsrdb_place",
    "Pvlib.Props.Requests.nsrdb_query"
   ],
   "note": ""
  },
  {
   "property": "C184",
   "status": "proved",
   "theorems": [
    "Pvlib.Props.RequestsMore.cams_refused",
    "Pvlib.Props.RequestsMore.cams_request",
    "Pvlib.Props.RequestsMore.cams_email",
    "Pvlib.Props.RequestsMore.cams_reply"
   ],
   "note": ""
  },
  {
   "property": "C185",
   "status": "proved",
   "theorems": [
    "Pvlib.Props.RequestsMore.pvgis_format",
    "Pvlib.Props.RequestsMore.pvgis_hourly",
    "Pvlib.Props.RequestsMore.pvgis_tmy",
    "Pvlib.Props.RequestsMore.pvgis_meta",
    "Pvlib.Props.RequestsMore.pvgis_time"
   ],
   "note": ""
  },
  {
   "property": "C186",
   "status": "proved",
   "theorems": [
    "Pvlib.Props.RequestsMore.renamed_old",
    "Pvlib.Props.RequestsMore.renamed_other",
    "Pvlib.Props.RequestsMore.deprecated_same",
    "Pvlib.Props.RequestsMore.message_made",
    "Pvlib.Props.RequestsMore.message_text"
   ],
   "note": ""
  },
  {
   "property": "C187",
   "status": "proved",
   "theorems": [
    "Pvlib.Props.Store.call_clean",
    "Pvlib.Props.Store.results_keep",
    "Pvlib.Props.Store.run_weather",
    "Pvlib.Props.Store.losses_once",
    "Pvlib.Props.Store.complete_content"
   ],
   "note": ""
  },
  {
   "property": "C188",
   "status": "proved",
   "theorems": [
    "Pvlib.Props.Store.preset_clean",
    "Pvlib.Props.Store.presets_history",
    "Pvlib.Props.Store.golden_clean",
    "Pvlib.Props.Store.trimmed_clean",
    "Pvlib.Props.Store.poa_clean",
    "Pvlib.Props.Store.merra2_own",
    "Pvlib.Props.Store.months_history"
   ],
   "note": ""
  },
  {
   "property": "C189",
   "status": "proved",
   "theorems": [
    "Pvlib.Props.Store.array_dicts",
    "Pvlib.Props.Store.arrays_separate",
    "Pvlib.Props.Store.inferred_shared",
    "Pvlib.Props.Store.inferred_leaks",
    "Pvlib.Props.Store.inferred_pvsyst",
    "Pvlib.Props.Store.system_losses"
   ],
   "note": ""
  },
  {
   "property": "C190",
   "status": "proved",
   "theorems": [
    "Pvlib.Props.Symmetry.projection_bearing",
    "Pvlib.Props.Symmetry.total_bearing",
    "Pvlib.Props.Symmetry.moves",
    "Pvlib.Props.Symmetry.bearing_needed"
   ],
   "note": ""
  },
  {
   "property": "C191",
   "status": "proved",
   "theorems": [
    "Pvlib.Props.Symmetry.sky_scale",
    "Pvlib.Props.Symmetry.total_scale"
   ],
   "note": ""
  },
  {
   "property": "C192",
   "status": "proved",
   "theorems": [
    "Pvlib.Props.PerezContinuity.names",
    "Pvlib.Props.PerezContinuity.name_1990",
    "Pvlib.Props.PerezContinuity.perez_jumps",
    "Pvlib.Props.PerezContinuity.perez_negative_isotropic",
    "Pvlib.Props.PerezContinuity.spline_continuous",
    "Pvlib.Props.PerezContinuity.driesse_continuous"
   ],
   "note": ""
  },
  {
   "property": "C193",
   "status": "proved",
   "theorems": [
    "Pvlib.Props.ArrayScaling.diode_array",
    "Pvlib.Props.ArrayScaling.array_i_from_v",
    "Pvlib.Props.ArrayScaling.array_v_from_i",
    "Pvlib.Props.ArrayScaling.array_singlediode",
    "Pvlib.Props.ArrayScaling.array_batzelis"
   ],
   "note": ""
  },
  {
   "property": "C194",
   "status": "proved",
   "theorems": [
    "Pvlib.Props.ArrayScaling.better_current",
    "Pvlib.Props.ArrayScaling.better_points"
   ],
   "note": ""
  },
  {
   "property": "C195",
   "status": "proved",
   "theorems": [
    "Pvlib.Props.ErbsShape.driesse_near_erbs",
    "Pvlib.Props.ErbsShape.driesse_smooth",
    "Pvlib.Props.ErbsShape.erbs_jumps"
   ],
   "note": ""
  },
  {
   "property": "C196",
   "status": "proved",
   "theorems": [
    "Pvlib.Props.ErbsShape.erbs_rises",
    "Pvlib.Props.ErbsShape.boland_rises",
    "Pvlib.Props.ErbsShape.driesse_rises",
    "Pvlib.Props.ErbsShape.orgill_falls"
   ],
   "note": "erbs_driesse only up to 1e-14 of ghi/cos(zenith): its rounded coefficients leave jumps of that size; orgill_hollands is shown not to have the property"
  },
  {
   "property": "C197",
   "status": "proved",
   "theorems": [
    "Pvlib.Props.TrackerSymmetry.turn",
    "Pvlib.Props.TrackerSymmetry.reverse_axis",
    "Pvlib.Props.TrackerSymmetry.mirror",
    "Pvlib.Props.TrackerSymmetry.not_behind"
   ],
   "note": "hypothesis psza != 180 of the two exchanges holds whenever the sun is not behind the plane of the axis (not_behind)"
  },
  {
   "property": "C198",
   "status": "proved",
   "theorems": [
    "Pvlib.Props.Continuation.snow_continues",
    "Pvlib.Props.Continuation.kimber_continues",
    "Pvlib.Props.Continuation.hsu_continues"
   ],
   "note": ""
  },
  {
   "property": "C199",
   "status": "proved",
   "theorems": [
    "Pvlib.Props.Hemispheres.zenith_mirrored",
    "Pvlib.Props.Hemispheres.azimuth_mirrored",
    "Pvlib.Props.Hemispheres.rise_set_mirrored",
    "Pvlib.Props.Hemispheres.days_add_up"
   ],
   "note": ""
  },
  {
   "property": "C200",
   "status": "proved",
   "theorems": [
    "Pvlib.Props.BifacialFlip.poa_bearing",
    "Pvlib.Props.BifacialFlip.flip"
   ],
   "note": ""
  },
  {
   "property": "C201",
   "status": "proved",
   "theorems": [
    "Pvlib.Props.ChainStrings.regrouped_pvwatts",
    "Pvlib.Props.ChainStrings.regrouped_sandia"
   ],
   "note": ""
  },
  {
   "property": "C202",
   "status": "proved",
   "theorems": [
    "Pvlib.Props.ChainDark.dark_plane",
    "Pvlib.Props.ChainDark.dark_effective",
    "Pvlib.Props.ChainDark.dark_poa",
    "Pvlib.Props.ChainDark.dark_weather"
   ],
   "note": ""
  },
  {
   "property": "C203",
   "status": "proved",
   "theorems": [
    "Pvlib.Props.ChainRows.rows_independent",
    "Pvlib.Props.ChainRows.rows_independent_poa",
    "Pvlib.Props.ChainRows.rows_independent_eff"
   ],
   "note": ""
  },
  {
   "property": "C204",
   "status": "proved",
   "theorems": [
    "Pvlib.Props.LockedTracker.same_normal",
    "Pvlib.Props.LockedTracker.locked_rotation",
    "Pvlib.Props.LockedTracker.locked_is_fixed"
   ],
   "note": ""
  },
  {
   "property": "C205",
   "status": "proved",
   "theorems": [
    "Pvlib.Props.Overcast.overcast_isotropic",
    "Pvlib.Props.Overcast.uniform_surroundings",
    "Pvlib.Props.Overcast.albedo_step",
    "Pvlib.Props.Overcast.albedo_monotone",
    "Pvlib.Props.Overcast.facing_away_falls"
   ],
   "note": ""
  },
  {
   "property": "C206",
   "status": "proved",
   "theorems": [
    "Pvlib.Props.SpectralResponse.spline_unique",
    "Pvlib.Props.SpectralResponse.spline_exists",
    "Pvlib.Props.SpectralResponse.response_pos",
    "Pvlib.Props.SpectralResponse.response_le",
    "Pvlib.Props.SpectralResponse.response_overshoots",
    "Pvlib.Props.SpectralResponse.response_data",
    "Pvlib.Props.SpectralResponse.response_series"
   ],
   "note": "Splines in exact arithmetic."
  },
  {
   "property": "C207",
   "status": "proved",
   "theorems": [
    "Pvlib.Props.SamTable.sam_units_ignored",
    "Pvlib.Props.SamTable.sam_cells",
    "Pvlib.Props.SamTable.adr_parses",
    "Pvlib.Props.SamTable.adr_comma"
   ],
   "note": "Splitting lines into typed fields is pandas."
  },
  {
   "property": "C208",
   "status": "proved",
   "theorems": [
    "Pvlib.Props.Files.files_closed",
    "Pvlib.Props.Files.files_parsed",
    "Pvlib.Props.Files.case_matters"
   ],
   "note": ""
  },
  {
   "property": "C209",
   "status": "proved",
   "theorems": [
    "Pvlib.Props.NewtonInputs.shape_largest",
    "Pvlib.Props.NewtonInputs.common_shape",
    "Pvlib.Props.NewtonInputs.no_broadcast",
    "Pvlib.Props.NewtonInputs.user_keywords_win",
    "Pvlib.Props.NewtonInputs.first_index"
   ],
   "note": ""
  },
  {
   "property": "C210",
   "status": "proved",
   "theorems": [
    "Pvlib.Props.Tables.spa_L0",
    "Pvlib.Props.Tables.spa_L1",
    "Pvlib.Props.Tables.spa_L2",
    "Pvlib.Props.Tables.spa_L3",
    "Pvlib.Props.Tables.spa_L4",
    "Pvlib.Props.Tables.spa_L5",
    "Pvlib.Props.Tables.spa_B0",
    "Pvlib.Props.Tables.spa_B1",
    "Pvlib.Props.Tables.spa_R0",
    "Pvlib.Props.Tables.spa_R1",
    "Pvlib.Props.Tables.spa_R2",
    "Pvlib.Props.Tables.spa_R3",
    "Pvlib.Props.Tables.spa_R4",
    "Pvlib.Props.Tables.nutation_coefficients",
    "Pvlib.Props.Tables.nutation_arguments",
    "Pvlib.Props.Tables.spectrl2_wavelength",
    "Pvlib.Props.Tables.spectrl2_et",
    "Pvlib.Props.Tables.spectrl2_vapor",
    "Pvlib.Props.Tables.spectrl2_ozone",
    "Pvlib.Props.Tables.spectrl2_mixed",
    "Pvlib.Props.Tables.perez_coefficients",
    "Pvlib.Props.Tables.dirint_coefficients",
    "Pvlib.Props.Tables.srml_names",
    "Pvlib.Props.Tables.midc_names",
    "Pvlib.Props.Tables.nasa_names",
    "Pvlib.Props.Tables.era5_names",
    "Pvlib.Props.Tables.merra2_names",
    "Pvlib.Props.Tables.psm4_names",
    "Pvlib.Props.Tables.psm4_request_names",
    "Pvlib.Props.Tables.meteonorm_names",
    "Pvlib.Props.Tables.meteonorm_steps",
    "Pvlib.Props.Tables.cell_types",
    "Pvlib.Props.Tables.tmy2_widths",
    "Pvlib.Props.Tables.tmy2_names",
    "Pvlib.Props.Tables.bsrn_columns_0100",
    "Pvlib.Props.Tables.bsrn_fields_0100",
    "Pvlib.Props.Tables.bsrn_columns_0300",
    "Pvlib.Props.Tables.bsrn_fields_0300",
    "Pvlib.Props.Tables.bsrn_columns_0500",
    "Pvlib.Props.Tables.bsrn_fields_0500",
    "Pvlib.Props.Tables.solcast_names",
    "Pvlib.Props.Tables.solargis_names",
    "Pvlib.Props.Tables.solargis_minus_nine",
    "Pvlib.Props.Tables.surface_albedos",
    "Pvlib.Props.Tables.water_color",
    "Pvlib.Props.Tables.water_roughness",
    "Pvlib.Props.Tables.crn_missing_codes",
    "Pvlib.Props.Tables.sapm_temperatures",
    "Pvlib.Props.Tables.pvsyst_temperatures",
    "Pvlib.Props.Tables.huld_pvgis5",
    "Pvlib.Props.Tables.huld_pvgis6",
    "Pvlib.Props.Tables.perez_driesse_splines"
   ],
   "note": "A check of transcription: the kernel compares two independently written copies of the data; scripts/tables.py reads the Python source."
  },
  {
   "property": "C211",
   "status": "proved",
   "theorems": [
    "Pvlib.Props.SingleDiode.newton_iFromV",
    "Pvlib.Props.SingleDiode.newton_iFromV_all",
    "Pvlib.Props.SingleDiode.newton_vFromI",
    "Pvlib.Props.SingleDiode.newton_vFromI_all",
    "Pvlib.Props.SingleDiode.solution_at_voltage",
    "Pvlib.Props.SingleDiode.solution_at_current"
   ],
   "note": "Exact arithmetic; scipy's scalar newton is specified as newtonRun in Props/SingleDiodeNewton.lean (the vectorised one follows the same iterates, newtonSeq)."
  },
  {
   "property": "C212",
   "status": "proved",
   "theorems": [
    "Pvlib.Props.SingleDiode.chandrupatla_finds",
    "Pvlib.Props.SingleDiode.chandrupatla_wrong_root"
   ],
   "note": "The root finder is a parameter."
  },
  {
   "property": "C213",
   "status": "proved",
   "theorems": [
    "Pvlib.Props.Longitude.spa_turn",
    "Pvlib.Props.Longitude.ephemeris_turn",
    "Pvlib.Props.Longitude.position_turn",
    "Pvlib.Props.Longitude.rise_set_spa_turn",
    "Pvlib.Props.Longitude.hour_angle_turn",
    "Pvlib.Props.Longitude.zenith_turn",
    "Pvlib.Props.Longitude.rise_set_geometric_turn"
   ],
   "note": "'nrel_c' and 'pyephem' call libraries that are not modelled."
  },
  {
   "property": "C214",
   "status": "proved",
   "theorems": [
    "Pvlib.Props.TwoSides.opposite_flip",
    "Pvlib.Props.TwoSides.aoi_back",
    "Pvlib.Props.TwoSides.direct_and_ground",
    "Pvlib.Props.TwoSides.isotropic_both",
    "Pvlib.Props.TwoSides.haydavies_both",
    "Pvlib.Props.TwoSides.king_both"
   ],
   "note": ""
  },
  {
   "property": "C215",
   "status": "proved",
   "theorems": [
    "Pvlib.Props.ChainTare.night_tare",
    "Pvlib.Props.ChainTare.night_nan"
   ],
   "note": ""
  },
  {
   "property": "C216",
   "status": "proved",
   "theorems": [
    "Pvlib.Props.ChainNight.sapm_night",
    "Pvlib.Props.ChainNight.tracker_night"
   ],
   "note": ""
  },
  {
   "property": "C217",
   "status": "proved",
   "theorems": [
    "Pvlib.Props.ChainMono.dc_value",
    "Pvlib.Props.ChainMono.ac_value",
    "Pvlib.Props.ChainMono.same_losses",
    "Pvlib.Props.ChainMono.dc_mono",
    "Pvlib.Props.ChainMono.ac_mono"
   ],
   "note": ""
  },
  {
   "property": "C218",
   "status": "proved",
   "theorems": [
    "Pvlib.Props.TransContinuity.total_continuous"
   ],
   "note": ""
  },
  {
   "property": "C219",
   "status": "proved",
   "theorems": [
    "Pvlib.Props.Midc.midc_file",
    "Pvlib.Props.Midc.midc_bad_date",
    "Pvlib.Props.Midc.midc_no_date",
    "Pvlib.Props.Midc.nrel",
    "Pvlib.Props.Midc.nrel_error",
    "Pvlib.Props.Midc.shifted",
    "Pvlib.Props.Midc.station_maps"
   ],
   "note": ""
  },
  {
   "property": "C220",
   "status": "proved",
   "theorems": [
    "Pvlib.Props.Pvfactors.report",
    "Pvlib.Props.Pvfactors.from_end",
    "Pvlib.Props.Pvfactors.cut_off",
    "Pvlib.Props.Pvfactors.wrong_length"
   ],
   "note": ""
  },
  {
   "property": "C221",
   "status": "proved",
   "theorems": [
    "Pvlib.Props.SpaContinuity.spa_continuous",
    "Pvlib.Props.SpaContinuity.apparent_continuous",
    "Pvlib.Props.SpaContinuity.horizon_somewhere"
   ],
   "note": ""
  },
  {
   "property": "C222",
   "status": "proved",
   "theorems": [
    "Pvlib.Props.DhiStable.erbs_steady",
    "Pvlib.Props.DhiStable.driesse_steady",
    "Pvlib.Props.DhiStable.orgill_steady",
    "Pvlib.Props.DhiStable.boland_steady"
   ],
   "note": ""
  },
  {
   "property": "C223",
   "status": "proved",
   "theorems": [
    "Pvlib.Props.ChainWarm.cell_cooler",
    "Pvlib.Props.ChainWarm.dc_cooler",
    "Pvlib.Props.ChainWarm.ac_cooler"
   ],
   "note": ""
  },
  {
   "property": "C224",
   "status": "proved",
   "theorems": [
    "Pvlib.Props.Warm.voltage_falls",
    "Pvlib.Props.Warm.desoto_falls",
    "Pvlib.Props.Warm.cec_falls",
    "Pvlib.Props.Warm.pvsyst_falls",
    "Pvlib.Props.Warm.desoto_no_gain",
    "Pvlib.Props.Warm.mpp_outweighs",
    "Pvlib.Props.Warm.desoto_outweighs"
   ],
   "note": ""
  },
  {
   "property": "C225",
   "status": "proved",
   "theorems": [
    "Pvlib.Props.BirdHaze.absorbers",
    "Pvlib.Props.BirdHaze.aerosols"
   ],
   "note": ""
  },
  {
   "property": "C226",
   "status": "proved",
   "theorems": [
    "Pvlib.Props.Dirt.kimber_cleaner",
    "Pvlib.Props.Dirt.hsu_cleaner",
    "Pvlib.Props.Dirt.hsu_fine_dust",
    "Pvlib.Props.Dirt.snow_less"
   ],
   "note": ""
  },
  {
   "property": "C227",
   "status": "proved",
   "theorems": [
    "Pvlib.Props.ChainDiode.params",
    "Pvlib.Props.ChainDiode.dc_value",
    "Pvlib.Props.ChainDiode.more_light",
    "Pvlib.Props.ChainDiode.warmer",
    "Pvlib.Props.ChainDiode.chain_built"
   ],
   "note": ""
  },
  {
   "property": "C228",
   "status": "proved",
   "theorems": [
    "Pvlib.Props.InverterMono.sandia_mono",
    "Pvlib.Props.InverterMono.sandia_rated_iff",
    "Pvlib.Props.InverterMono.sandia_overload",
    "Pvlib.Props.InverterMono.sandia_le_dc",
    "Pvlib.Props.InverterMono.adr_value",
    "Pvlib.Props.InverterMono.adr_mono",
    "Pvlib.Props.InverterMono.adr_le_dc",
    "Pvlib.Props.InverterMono.adr_rated_iff"
   ],
   "note": ""
  },
  {
   "property": "C229",
   "status": "proved",
   "theorems": [
    "Pvlib.Props.Townsend.value",
    "Pvlib.Props.Townsend.worse",
    "Pvlib.Props.Townsend.more_falls",
    "Pvlib.Props.Townsend.counts"
   ],
   "note": ""
  },
  {
   "property": "C230",
   "status": "proved",
   "theorems": [
    "Pvlib.Props.Wavelet.value",
    "Pvlib.Props.Wavelet.average_eq",
    "Pvlib.Props.Wavelet.reduction_eq",
    "Pvlib.Props.Wavelet.reduction_mono"
   ],
   "note": ""
  },
  {
   "property": "C231",
   "status": "proved",
   "theorems": [
    "Pvlib.Props.AirMass.airmass_value",
    "Pvlib.Props.AirMass.airmass_increasing",
    "Pvlib.Props.AirMass.youngirvine_peak",
    "Pvlib.Props.AirMass.kastenyoung_zenith",
    "Pvlib.Props.AirMass.standard_atmosphere",
    "Pvlib.Props.AirMass.precipitable_water",
    "Pvlib.Props.AirMass.broadband_aerosol"
   ],
   "note": ""
  },
  {
   "property": "C232",
   "status": "proved",
   "theorems": [
    "Pvlib.Props.FillFactor.diode_concave",
    "Pvlib.Props.FillFactor.iFromV_concave",
    "Pvlib.Props.FillFactor.fill_factor"
   ],
   "note": ""
  },
  {
   "property": "C233",
   "status": "proved",
   "theorems": [
    "Pvlib.Props.Huld.huld_shipped"
   ],
   "note": ""
  },
  {
   "property": "C234",
   "status": "proved",
   "theorems": [
    "Pvlib.Props.PvsystLight.shunt_product",
    "Pvlib.Props.PvsystLight.current_increases'",
    "Pvlib.Props.PvsystLight.pvsyst_power",
    "Pvlib.Props.PvsystLight.dc_value",
    "Pvlib.Props.PvsystLight.more_light",
    "Pvlib.Props.PvsystLight.warmer"
   ],
   "note": ""
  },
  {
   "property": "C235",
   "status": "proved",
   "theorems": [
    "Pvlib.Props.SapmLight.light_mono",
    "Pvlib.Props.SapmLight.slope_of_signs",
    "Pvlib.Props.SapmLight.dc_columns",
    "Pvlib.Props.SapmLight.more_light"
   ],
   "note": ""
  },
  {
   "property": "C236",
   "status": "proved",
   "theorems": [
    "Pvlib.Props.DenseRows.tracker_denser",
    "Pvlib.Props.DenseRows.shade_sparser",
    "Pvlib.Props.DenseRows.views_denser",
    "Pvlib.Props.DenseRows.sky_mean_denser",
    "Pvlib.Props.DenseRows.masking_denser",
    "Pvlib.Props.DenseRows.passias_denser",
    "Pvlib.Props.DenseRows.ground_denser"
   ],
   "note": ""
  },
  {
   "property": "C237",
   "status": "proved",
   "theorems": [
    "Pvlib.Props.ChainLosses.factor",
    "Pvlib.Props.ChainLosses.left_anti",
    "Pvlib.Props.ChainLosses.left_le_one",
    "Pvlib.Props.ChainLosses.left_all",
    "Pvlib.Props.ChainLosses.same_but_losses",
    "Pvlib.Props.ChainLosses.noLess_of",
    "Pvlib.Props.ChainLosses.dc_less",
    "Pvlib.Props.ChainLosses.ac_less",
    "Pvlib.Props.ChainLosses.no_reflection",
    "Pvlib.Props.ChainLosses.no_reflection_dc"
   ],
   "note": ""
  },
  {
   "property": "C238",
   "status": "proved",
   "theorems": [
    "Pvlib.Props.ChainWires.lost_rated",
    "Pvlib.Props.ChainWires.lost_mono",
    "Pvlib.Props.ChainWires.same_but_wires",
    "Pvlib.Props.ChainWires.wires_less",
    "Pvlib.Props.ChainWires.no_more",
    "Pvlib.Props.ChainWires.ac_no_more"
   ],
   "note": ""
  },
  {
   "property": "C239",
   "status": "proved",
   "theorems": [
    "Pvlib.Props.SkyModels.isotropic_sky",
    "Pvlib.Props.SkyModels.haydavies_sky",
    "Pvlib.Props.SkyModels.reindl_sky",
    "Pvlib.Props.SkyModels.klucher_sky",
    "Pvlib.Props.SkyModels.king_sky",
    "Pvlib.Props.SkyModels.klucher_vs_isotropic",
    "Pvlib.Props.SkyModels.haydavies_vs_isotropic",
    "Pvlib.Props.SkyModels.reindl_vs_haydavies",
    "Pvlib.Props.SkyModels.king_vs_isotropic",
    "Pvlib.Props.SkyModels.global_follows"
   ],
   "note": ""
  },
  {
   "property": "C240",
   "status": "proved",
   "theorems": [
    "Pvlib.Props.Mountings.constructed",
    "Pvlib.Props.Mountings.sandia_value",
    "Pvlib.Props.Mountings.sandia_order",
    "Pvlib.Props.Mountings.pvsyst_value",
    "Pvlib.Props.Mountings.pvsyst_order"
   ],
   "note": ""
  },
  {
   "property": "C241",
   "status": "proved",
   "theorems": [
    "Pvlib.Props.ChainGround.more_light",
    "Pvlib.Props.ChainGround.more_effective",
    "Pvlib.Props.ChainGround.no_less",
    "Pvlib.Props.ChainGround.dc_no_less",
    "Pvlib.Props.ChainGround.column_wins"
   ],
   "note": ""
  },
  {
   "property": "C242",
   "status": "proved",
   "theorems": [
    "Pvlib.Props.DayCourse.nearer_noon",
    "Pvlib.Props.DayCourse.nearer_noon_strict",
    "Pvlib.Props.DayCourse.zenith_midnight",
    "Pvlib.Props.DayCourse.midnight_sun",
    "Pvlib.Props.DayCourse.polar_night",
    "Pvlib.Props.DayCourse.exist_iff",
    "Pvlib.Props.DayCourse.longer_north",
    "Pvlib.Props.DayCourse.longer_summer",
    "Pvlib.Props.DayCourse.earlier_later",
    "Pvlib.Props.DayCourse.twelve_hours"
   ],
   "note": ""
  },
  {
   "property": "C243",
   "status": "proved",
   "theorems": [
    "Pvlib.Props.YearCourse.cooper_rises",
    "Pvlib.Props.YearCourse.cooper_falls",
    "Pvlib.Props.YearCourse.cooper_solstices",
    "Pvlib.Props.YearCourse.days_lengthen",
    "Pvlib.Props.YearCourse.days_shorten",
    "Pvlib.Props.YearCourse.longest_day",
    "Pvlib.Props.YearCourse.day_exists",
    "Pvlib.Props.YearCourse.noon_height"
   ],
   "note": ""
  },
  {
   "property": "C244",
   "status": "proved",
   "theorems": [
    "Pvlib.Props.ClearDay.ineichen_lower_sun",
    "Pvlib.Props.ClearDay.symmetric",
    "Pvlib.Props.ClearDay.haurwitz_day",
    "Pvlib.Props.ClearDay.haurwitz_daylight",
    "Pvlib.Props.ClearDay.solis_day",
    "Pvlib.Props.ClearDay.ineichen_day"
   ],
   "note": ""
  }
 ]
}
