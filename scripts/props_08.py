P('C84','Construction of a PVSystem and its Arrays',
  "A PVSystem always has at least one Array (an empty sequence raises ValueError); given Arrays are kept in order and the single-array arguments are then ignored; without Arrays exactly one is built on a fixed mount with the given orientation, and only dc_ohmic_percent of the system's losses reaches it. An Array's albedo is the given one, else that of its surface type, else 0.25.",
  "all arguments, any number of arrays", INF, ["pvlib/pvsystem.py:PVSystem.__init__","pvlib/pvsystem.py:Array.__init__"], "Case analysis of the constructor.")
P('C85','PVSystem methods work array by array',
  "Every per-array method of PVSystem accepts a tuple with one value per Array (or one bare value when there is one Array, or when the quantity may be system-wide), raises ValueError otherwise, and then returns, in the order of the Arrays, exactly what each Array computes from its own values; the first failing Array's exception propagates; a single result is unwrapped unless unwrap=False; results of different Arrays do not influence each other.",
  "all systems with any number of arrays, all inputs", INF, ["pvlib/pvsystem.py:PVSystem._validate_per_array","pvlib/pvsystem.py:_unwrap_single_value","pvlib/pvsystem.py:PVSystem"], "Induction over the list of arrays; each method is shown equivalent to a pointwise specification.")
P('C86','PVSystem.get_ac dispatch',
  "get_ac is case-insensitive in the model name and refuses unknown ones; one Array uses the single-input inverter model with bare values or singleton tuples, several use the multi-input one on all of them (PVWatts: on the total power, ignoring voltage); adr refuses several Arrays; wrong numbers of values raise ValueError; efficiencies are taken from the inverter parameters when present.",
  "all systems, model names and inputs", INF, ["pvlib/pvsystem.py:PVSystem.get_ac"], "Case analysis.")
P('C87','Inferred temperature parameters and cell type',
  "Given temperature parameters are never replaced; otherwise the SAPM set of the exact racking_module name is used, else the PVsyst set of the first mounting name contained in it, else none. The cell type comes from Technology before Material; every inferred type has First Solar coefficients; coefficients stored with the module take precedence.",
  "all racking models, module types and parameter dicts", INF, ["pvlib/pvsystem.py:Array._infer_temperature_model_params","pvlib/pvsystem.py:Array._infer_cell_type","pvlib/pvsystem.py:PVSystem.first_solar_spectral_loss"], "Case analysis with an independent substring specification.")
P('C88','Array cell temperature, IAM and wiring resistance dispatch',
  "get_cell_temperature evaluates the named model with the Array's own coefficients and documented defaults, names the first missing required coefficient in a KeyError, and refuses unknown names (case-sensitively); Ross needs exactly one of noct and k; inferred SAPM coefficients always suffice. get_iam is case-insensitive with documented defaults. dc_ohms_from_percent uses the first complete pair of names (CEC, SAPM, PVsyst), ValueError when there is none.",
  "all arrays, parameter dicts, weather series and model names", INF, ["pvlib/pvsystem.py:Array.get_cell_temperature","pvlib/pvsystem.py:Array.get_iam","pvlib/pvsystem.py:Array.dc_ohms_from_percent"], "Case analysis through a lemma characterising keyword selection.")
P('C89','Array.get_irradiance',
  "The irradiance of an Array is get_total_irradiance at the orientation of its mount (constant for a fixed mount, singleaxis for a tracker), with the Array's albedo, the extraterrestrial irradiance (1367 W/m2 when the time is unknown) and Kasten-Young air mass filled in when missing; with the default model it never raises.",
  "all arrays, sun positions and irradiances", INF, ["pvlib/pvsystem.py:Array.get_irradiance","pvlib/pvsystem.py:FixedMount","pvlib/pvsystem.py:SingleAxisTrackerMount"], "Case analysis.")
P('C90','Parameter routing of losses and module models',
  "pvwatts_losses, calcparams_desoto/cec/pvsyst and pvwatts_dc of a system take each argument from the entry of the same name, use the documented default for an absent optional one, ignore unrelated entries, and raise TypeError / KeyError for an absent required one.",
  "all parameter dicts", INF, ["pvlib/pvsystem.py:PVSystem.pvwatts_losses","pvlib/pvsystem.py:PVSystem.calcparams_desoto","pvlib/pvsystem.py:PVSystem.calcparams_cec","pvlib/pvsystem.py:PVSystem.calcparams_pvsyst","pvlib/pvsystem.py:PVSystem.pvwatts_dc"], "Keyword selection lemma.")
