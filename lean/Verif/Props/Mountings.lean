import Verif.Props.ArrayClass
import Mathlib.Analysis.Complex.ExponentialBounds

/-! C240: what the inferred temperature parameters say about mountings. The two built-in parameter tables are used by naming how the
modules are mounted. Whatever the irradiance, the air temperature and the wind (up to 25 m/s for the Sandia model), a better
ventilated mounting is never warmer: open rack glass/polymer, open rack glass/glass, close mount glass/glass, insulated back
glass/polymer for the Sandia model; freestanding, semi-integrated, insulated for the PVsyst model.
Code: pvlib/pvsystem.py `Array.__init__`, `Array._infer_temperature_model_params`, `Array.get_cell_temperature`,
pvlib/temperature.py `TEMPERATURE_MODEL_PARAMETERS`, `sapm_cell`, `pvsyst_cell`. -/
open scoped Classical
namespace Pvlib.Props.Mountings
open Fl Pvlib.Tools Pvlib.PvFunctions Pvlib.PvSystem Pvlib.Props.PvSystem Pvlib.Props.ArrayClass

/-- An array whose temperature parameters were not given: it has those the constructor infers from the mounting and the kind of
module. -/
structure Inferred (a : PvArr) (racking module_type : String) : Prop where
  racking : a.mount.racking = some racking
  kind : a.module_type = some module_type
  params : a.temperature_model_parameters = inferTemperatureParams a.mount.racking a.module_type

/-- The constructor builds such arrays, whatever the mount's other settings. -/
theorem constructed (m : Mount) (r t : String) (h : m.racking = some r) : Inferred (mkArray m (module_type := some t)) r t :=
  ⟨h, rfl, rfl⟩

/-- Weather of one moment: sunlight `e` on the modules, air temperature `t`, wind `v`. -/
structure Moment (w : Weather) (i : ℕ) (e t v : ℝ) : Prop where
  light : w.poa_global i = fin e
  air : w.temp_air i = fin t
  wind : w.wind_speed i = fin v

/-- The cell temperature of the Sandia model with coefficients `a`, `b`, `dT`. -/
noncomputable def sandia (a b dT e t v : ℝ) : ℝ := e * Real.exp (a + b * v) + t + e / 1000 * dT

/-- The cell temperature of the PVsyst model with loss coefficient `u` (no wind term), 10 % efficiency and 90 % absorption. -/
noncomputable def pvsyst (u e t : ℝ) : ℝ := t + e * 0.9 * (1 - 0.1) / u

private theorem sandia_of {p : PvArr} {a b dT : ℝ} (hp : p.temperature_model_parameters = sapmSet a b dT) (sigma : Fl)
    (w : Weather) {f : ℕ → Fl} (hf : p.getCellTemperature sigma w "sapm" = .ok f) {i : ℕ} {e t v : ℝ} (h : Moment w i e t v) :
    f i = fin (sandia a b dT e t v) := by
  rw [temp_sapm sigma p w (ca := fin a) (cb := fin b) (dT := fin dT) (by simp [hp, entry, sapmSet, PyDict.get?])
    (by simp [hp, entry, sapmSet, PyDict.get?]) (by simp [hp, entry, sapmSet, PyDict.get?])
    (by simp [hp, Numeric, sapmSet, PyDict.get?])] at hf
  obtain rfl := Except.ok.inj hf
  have hn : (entry p.temperature_model_parameters "irrad_ref") = none := by simp [hp, entry, sapmSet, PyDict.get?]
  dsimp only
  rw [hn, h.light, h.air, h.wind]
  unfold Temperature.sapmCell Temperature.sapmCellFromModule Temperature.sapmModule
  rw [Option.getD_none, Fl.ofNat_eq]
  simp only [fin_mul, fin_add, exp_fin]
  rw [fin_div (by norm_num)]
  simp only [fin_mul, fin_add, sandia]

/-- **C240**: the Sandia cell temperature of an array with inferred parameters, for each of the four mountings. -/
theorem sandia_value {p : PvArr} {r k : String} (h : Inferred p r k) (sigma : Fl) (w : Weather) {f : ℕ → Fl}
    (hf : p.getCellTemperature sigma w "sapm" = .ok f) {i : ℕ} {e t v : ℝ} (hm : Moment w i e t v) :
    (r = "open_rack" → k = "glass_polymer" → f i = fin (sandia (-3.56) (-0.0750) 3 e t v)) ∧
    (r = "open_rack" → k = "glass_glass" → f i = fin (sandia (-3.47) (-0.0594) 3 e t v)) ∧
    (r = "close_mount" → k = "glass_glass" → f i = fin (sandia (-2.98) (-0.0471) 1 e t v)) ∧
    (r = "insulated_back" → k = "glass_polymer" → f i = fin (sandia (-2.81) (-0.0455) 0 e t v)) := by
  have hp := h.params
  rw [h.racking, h.kind] at hp
  refine ⟨?_, ?_, ?_, ?_⟩ <;> rintro rfl rfl
  · exact sandia_of (hp.trans infer_sapm.2.2.1) sigma w hf hm
  · exact sandia_of (hp.trans infer_sapm.1) sigma w hf hm
  · exact sandia_of (hp.trans infer_sapm.2.1) sigma w hf hm
  · exact sandia_of (hp.trans infer_sapm.2.2.2) sigma w hf hm

private theorem warmer {a a' b b' d d' e t v : ℝ} (he : 0 ≤ e) (h5 : -5 ≤ a + b * v)
    (hg : (d - d') / 1000 ≤ 1 / 149 * ((a' - a) + (b' - b) * v)) (hg0 : 0 ≤ (a' - a) + (b' - b) * v) :
    sandia a b d e t v ≤ sandia a' b' d' e t v := by
  have h1 : (1 : ℝ) / 149 ≤ Real.exp (a + b * v) := by
    have h2 : Real.exp 5 ≤ 149 := by
      have : Real.exp 5 = Real.exp 1 ^ 5 := by rw [← Real.exp_nat_mul]; norm_num
      rw [this]
      have := Real.exp_one_lt_d9.le
      calc Real.exp 1 ^ 5 ≤ (2.7182818286 : ℝ) ^ 5 := by gcongr
        _ ≤ 149 := by norm_num
    calc (1 : ℝ) / 149 ≤ 1 / Real.exp 5 := by gcongr
      _ = Real.exp (-5) := by rw [Real.exp_neg, one_div]
      _ ≤ _ := Real.exp_le_exp.mpr h5
  have h3 : Real.exp (a' + b' * v) = Real.exp (a + b * v) * Real.exp ((a' - a) + (b' - b) * v) := by
    rw [← Real.exp_add]; congr 1; ring
  have h4 := Real.add_one_le_exp ((a' - a) + (b' - b) * v)
  have h6 : (d - d') / 1000 ≤ Real.exp (a' + b' * v) - Real.exp (a + b * v) := by
    rw [h3]
    calc (d - d') / 1000 ≤ 1 / 149 * ((a' - a) + (b' - b) * v) := hg
      _ ≤ Real.exp (a + b * v) * ((a' - a) + (b' - b) * v) := by gcongr
      _ ≤ Real.exp (a + b * v) * (Real.exp ((a' - a) + (b' - b) * v) - 1) := by gcongr; linarith
      _ = _ := by ring
  unfold sandia
  have := mul_le_mul_of_nonneg_left h6 he
  linarith

/-- **C240**: with inferred Sandia parameters, the four mountings from the coolest to the warmest, in any irradiance, at any air
temperature, in wind up to 25 m/s. -/
theorem sandia_order {p1 p2 p3 p4 : PvArr} (h1 : Inferred p1 "open_rack" "glass_polymer") (h2 : Inferred p2 "open_rack" "glass_glass")
    (h3 : Inferred p3 "close_mount" "glass_glass") (h4 : Inferred p4 "insulated_back" "glass_polymer") (sigma : Fl) (w : Weather)
    {f1 f2 f3 f4 : ℕ → Fl} (e1 : p1.getCellTemperature sigma w "sapm" = .ok f1) (e2 : p2.getCellTemperature sigma w "sapm" = .ok f2)
    (e3 : p3.getCellTemperature sigma w "sapm" = .ok f3) (e4 : p4.getCellTemperature sigma w "sapm" = .ok f4)
    {i : ℕ} {e t v : ℝ} (hm : Moment w i e t v) (he : 0 ≤ e) (hv : 0 ≤ v) (hv25 : v ≤ 25) :
    f1 i ≤ f2 i ∧ f2 i ≤ f3 i ∧ f3 i ≤ f4 i := by
  rw [(sandia_value h1 sigma w e1 hm).1 rfl rfl, (sandia_value h2 sigma w e2 hm).2.1 rfl rfl,
    (sandia_value h3 sigma w e3 hm).2.2.1 rfl rfl, (sandia_value h4 sigma w e4 hm).2.2.2 rfl rfl, fin_le, fin_le, fin_le]
  refine ⟨?_, warmer he ?_ ?_ ?_, warmer he ?_ ?_ ?_⟩
  · unfold sandia
    have : Real.exp (-3.56 + -0.0750 * v) ≤ Real.exp (-3.47 + -0.0594 * v) := Real.exp_le_exp.mpr (by linarith)
    have := mul_le_mul_of_nonneg_left this he
    linarith
  all_goals norm_num
  all_goals linarith

private theorem pvsyst_of {p : PvArr} {u : ℝ} (hu : 0 < u) (hp : p.temperature_model_parameters = pvsystSet u)
    (hmod : p.module_parameters = []) (sigma : Fl)
    (w : Weather) {f : ℕ → Fl} (hf : p.getCellTemperature sigma w "pvsyst" = .ok f) {i : ℕ} {e t v : ℝ} (h : Moment w i e t v) :
    f i = fin (pvsyst u e t) := by
  rw [temp_pvsyst sigma p w (by simp [hmod, Numeric, PyDict.get?]) (by simp [hmod, Numeric, PyDict.get?])
    (by simp [hp, Numeric, pvsystSet, PyDict.get?]) (by simp [hp, Numeric, pvsystSet, PyDict.get?])] at hf
  obtain rfl := Except.ok.inj hf
  have h1 : entry p.temperature_model_parameters "u_c" = some (fin u) := by simp [hp, entry, pvsystSet, PyDict.get?]
  have h2 : entry p.temperature_model_parameters "u_v" = some (fin 0) := by simp [hp, entry, pvsystSet, PyDict.get?]
  have h3 : entry p.module_parameters "module_efficiency" = none := by simp [hmod, entry, PyDict.get?]
  have h4 : entry p.module_parameters "alpha_absorption" = none := by simp [hmod, entry, PyDict.get?]
  dsimp only
  rw [h1, h2, h3, h4, h.light, h.air, h.wind]
  unfold Temperature.pvsystCell
  simp only [Option.getD_none, Option.getD_some]
  rw [Fl.ofScientific_eq, Fl.ofScientific_eq, one_eq]
  simp only [fin_mul, fin_add, fin_sub, zero_mul, add_zero]
  rw [fin_div hu.ne', fin_add, pvsyst]

/-- The name "`racking`_`module type`" contains the text `s`. -/
def Names (r k s : String) : Prop := ∃ pre post : List Char, (r ++ "_" ++ k).toList = pre ++ s.toList ++ post

/-- **C240**: the PVsyst cell temperature of an array with inferred parameters and no module parameters. The mounting is read off
the text "`racking`_`module type`" (unless it is one of the four Sandia names). -/
theorem pvsyst_value {p : PvArr} {r k : String} (h : Inferred p r k) (hmod : p.module_parameters = [])
    (hother : r ++ "_" ++ k ∉ sapmNames) (sigma : Fl) (w : Weather) {f : ℕ → Fl}
    (hf : p.getCellTemperature sigma w "pvsyst" = .ok f) {i : ℕ} {e t v : ℝ} (hm : Moment w i e t v) :
    (Names r k "freestanding" → f i = fin (pvsyst 29 e t)) ∧
    (¬ Names r k "freestanding" → Names r k "insulated" → f i = fin (pvsyst 15 e t)) ∧
    (¬ Names r k "freestanding" → ¬ Names r k "insulated" → Names r k "semi_integrated" → f i = fin (pvsyst 20 e t)) := by
  have hp := h.params
  rw [h.racking, h.kind, infer_other (some r) (some k) (by simpa [fmtOpt] using hother)] at hp
  change p.temperature_model_parameters =
    (if Names r k "freestanding" then pvsystSet 29 else if Names r k "insulated" then pvsystSet 15
      else if Names r k "semi_integrated" then pvsystSet 20 else []) at hp
  refine ⟨fun a => ?_, fun a b => ?_, fun a b c => ?_⟩
  · rw [if_pos a] at hp
    exact pvsyst_of (by norm_num) hp hmod sigma w hf hm
  · rw [if_neg a, if_pos b] at hp
    exact pvsyst_of (by norm_num) hp hmod sigma w hf hm
  · rw [if_neg a, if_neg b, if_pos c] at hp
    exact pvsyst_of (by norm_num) hp hmod sigma w hf hm

/-- **C240**: with inferred PVsyst parameters: a freestanding array is no warmer than a semi-integrated one, and that one no warmer
than an insulated one, strictly as soon as the sun shines. The wind does not matter. -/
theorem pvsyst_order {p1 p2 p3 : PvArr} {r1 k1 r2 k2 r3 k3 : String} (h1 : Inferred p1 r1 k1) (h2 : Inferred p2 r2 k2)
    (h3 : Inferred p3 r3 k3) (m1 : p1.module_parameters = []) (m2 : p2.module_parameters = []) (m3 : p3.module_parameters = [])
    (o1 : r1 ++ "_" ++ k1 ∉ sapmNames) (o2 : r2 ++ "_" ++ k2 ∉ sapmNames) (o3 : r3 ++ "_" ++ k3 ∉ sapmNames)
    (n1 : Names r1 k1 "freestanding")
    (n2 : ¬ Names r2 k2 "freestanding" ∧ ¬ Names r2 k2 "insulated" ∧ Names r2 k2 "semi_integrated")
    (n3 : ¬ Names r3 k3 "freestanding" ∧ Names r3 k3 "insulated") (sigma : Fl) (w : Weather) {f1 f2 f3 : ℕ → Fl}
    (e1 : p1.getCellTemperature sigma w "pvsyst" = .ok f1) (e2 : p2.getCellTemperature sigma w "pvsyst" = .ok f2)
    (e3 : p3.getCellTemperature sigma w "pvsyst" = .ok f3) {i : ℕ} {e t v : ℝ} (hm : Moment w i e t v) (he : 0 ≤ e) :
    f1 i ≤ f2 i ∧ f2 i ≤ f3 i ∧ (0 < e → f1 i < f2 i ∧ f2 i < f3 i) := by
  rw [(pvsyst_value h1 m1 o1 sigma w e1 hm).1 n1, (pvsyst_value h2 m2 o2 sigma w e2 hm).2.2 n2.1 n2.2.1 n2.2.2,
    (pvsyst_value h3 m3 o3 sigma w e3 hm).2.1 n3.1 n3.2, fin_le, fin_le, fin_lt, fin_lt]
  unfold pvsyst
  refine ⟨by linarith, by linarith, fun h => ⟨by linarith, by linarith⟩⟩

/-- The three texts of the PVsyst table, as racking models without a module type given as text. -/
theorem examples :
    Names "freestanding" "glass_glass" "freestanding" ∧
    (¬ Names "semi_integrated" "glass_glass" "freestanding" ∧ ¬ Names "semi_integrated" "glass_glass" "insulated" ∧
      Names "semi_integrated" "glass_glass" "semi_integrated") ∧
    (¬ Names "insulated" "glass_glass" "freestanding" ∧ Names "insulated" "glass_glass" "insulated") := by
  have h : ∀ r k s, (Names r k s ↔ hasSub s (r ++ "_" ++ k) = true) := fun r k s => (hasSub_iff s _).symm
  simp only [h]
  decide +kernel

/-- An array on a fixed mount, with the temperature parameters the constructor infers. -/
noncomputable def fixed (r k : String) : PvArr := mkArray (.fixed 30 180 (some r) none) (module_type := some k)

/-- A sunny breezy day, the same at every moment. -/
noncomputable def day : Weather := ⟨fun _ => fin 800, fun _ => fin 25, fun _ => fin 3, none, none, fun i => i⟩

/-- The hypotheses are met: four constructed arrays on that day, all of which have a cell temperature. -/
example (sigma : Fl) : ∃ f1 f2 f3 f4 : ℕ → Fl, (fixed "open_rack" "glass_polymer").getCellTemperature sigma day "sapm" = .ok f1 ∧
    (fixed "insulated_back" "glass_polymer").getCellTemperature sigma day "sapm" = .ok f4 ∧
    f1 0 ≤ f2 0 ∧ f2 0 ≤ f3 0 ∧ f3 0 ≤ f4 0 := by
  have t : ∀ r k : String, r ++ "_" ++ k ∈ sapmNames → ∃ f, (fixed r k).getCellTemperature sigma day "sapm" = .ok f :=
    fun r k h => temp_inferred sigma (fixed r k) day rfl (by simpa [fixed, mkArray, Mount.racking, fmtOpt] using h)
  obtain ⟨f1, e1⟩ := t "open_rack" "glass_polymer" (by simp [sapmNames])
  obtain ⟨f2, e2⟩ := t "open_rack" "glass_glass" (by simp [sapmNames])
  obtain ⟨f3, e3⟩ := t "close_mount" "glass_glass" (by simp [sapmNames])
  obtain ⟨f4, e4⟩ := t "insulated_back" "glass_polymer" (by simp [sapmNames])
  exact ⟨f1, f2, f3, f4, e1, e4, sandia_order (constructed _ _ _ rfl) (constructed _ _ _ rfl) (constructed _ _ _ rfl)
    (constructed _ _ _ rfl) sigma day e1 e2 e3 e4 (i := 0) (e := 800) (t := 25) (v := 3) ⟨rfl, rfl, rfl⟩ (by norm_num) (by norm_num)
    (by norm_num)⟩

/-- And three for the PVsyst model. -/
example (sigma : Fl) : ∃ f1 f2 f3 : ℕ → Fl, (fixed "freestanding" "glass_glass").getCellTemperature sigma day "pvsyst" = .ok f1 ∧
    f1 0 < f2 0 ∧ f2 0 < f3 0 := by
  have t : ∀ r k : String, r ++ "_" ++ k ∉ sapmNames → ∃ f, (fixed r k).getCellTemperature sigma day "pvsyst" = .ok f := by
    intro r k h
    have hp : ∃ u : ℝ, (fixed r k).temperature_model_parameters = pvsystSet u ∨ (fixed r k).temperature_model_parameters = [] := by
      have := infer_other (some r) (some k) (by simpa [fmtOpt] using h)
      change (fixed r k).temperature_model_parameters = _ at this
      rw [this]
      split_ifs
      · exact ⟨29, Or.inl rfl⟩
      · exact ⟨15, Or.inl rfl⟩
      · exact ⟨20, Or.inl rfl⟩
      · exact ⟨0, Or.inr rfl⟩
    obtain ⟨u, hp | hp⟩ := hp <;>
    exact ⟨_, temp_pvsyst sigma (fixed r k) day (by simp [fixed, mkArray, Numeric, PyDict.get?])
      (by simp [fixed, mkArray, Numeric, PyDict.get?]) (by simp [hp, Numeric, pvsystSet, PyDict.get?])
      (by simp [hp, Numeric, pvsystSet, PyDict.get?])⟩
  obtain ⟨x1, x2, x3⟩ := examples
  obtain ⟨f1, e1⟩ := t "freestanding" "glass_glass" (by simp [sapmNames])
  obtain ⟨f2, e2⟩ := t "semi_integrated" "glass_glass" (by simp [sapmNames])
  obtain ⟨f3, e3⟩ := t "insulated" "glass_glass" (by simp [sapmNames])
  obtain ⟨_, _, h⟩ := pvsyst_order (constructed _ _ _ rfl) (constructed _ _ _ rfl) (constructed _ _ _ rfl) rfl rfl rfl (by simp [sapmNames])
    (by simp [sapmNames]) (by simp [sapmNames]) x1 x2 x3 sigma day e1 e2 e3 (i := 0) (e := 800) (t := 25) (v := 3) ⟨rfl, rfl, rfl⟩
    (by norm_num)
  exact ⟨f1, f2, f3, e1, h (by norm_num)⟩

end Pvlib.Props.Mountings
