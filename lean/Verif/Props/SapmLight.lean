import Verif.Props.ChainDiode
import Verif.Props.Sapm

/-! # Property C235: what a chain with Sandia modules reports, and that more light never gives less -/

noncomputable section
open scoped Classical
namespace Pvlib.Props.SapmLight
open Fl Pvlib.Tools Pvlib.PvFunctions Pvlib.PvSystem Pvlib.ModelChain Pvlib.Props.PvSystem Pvlib.Props.ChainRun
  Pvlib.Props.ChainArrays Pvlib.Props.ArrayClass Pvlib.Props.ChainFacts Pvlib.Props.ChainTare Pvlib.Props.ChainMono
  Pvlib.Props.ChainDiode Pvlib.Props.Sapm

/-! ### The module -/

/-- The published equations at `e` suns and cell temperature `T` (reference temperature 25 °C), natural logarithm of `e`. -/
def isc (c : Coeffs) (e T : ℝ) : ℝ := c.Isco * e * (1 + c.Aisc * (T - 25))
def imp (c : Coeffs) (e T : ℝ) : ℝ := c.Impo * (c.C0 * e + c.C1 * e ^ 2) * (1 + c.Aimp * (T - 25))
def voc (c : Coeffs) (e T : ℝ) : ℝ := max 0 (c.Voco + c.Ns * c.delta T * Real.log e + (c.Bvoco + c.Mbvoc * (1 - e)) * (T - 25))
def vmp (c : Coeffs) (e T : ℝ) : ℝ := max 0 (c.Vmpo + c.C2 * c.Ns * c.delta T * Real.log e + c.C3 * c.Ns * (c.delta T * Real.log e) ^ 2 +
  (c.Bvmpo + c.Mbvmp * (1 - e)) * (T - 25))

/-- A module whose current at the maximum power point grows with light up to `e` suns, and whose voltage there does. -/
structure Regular (c : Coeffs) (e T : ℝ) : Prop where
  Isco : 0 ≤ c.Isco
  Impo : 0 ≤ c.Impo
  Ns : 0 ≤ c.Ns
  delta : 0 ≤ c.delta T
  C0 : 0 ≤ c.C0
  rising : 0 ≤ c.C0 + 2 * c.C1 * e
  C3 : c.C3 ≤ 0
  slope : 0 ≤ c.C2 + 2 * c.C3 * (c.delta T * Real.log e)
  Mbvoc : c.Mbvoc * (T - 25) ≤ 0
  Mbvmp : c.Mbvmp * (T - 25) ≤ 0
  warm : 0 ≤ 1 + c.Aisc * (T - 25)
  warmMp : 0 ≤ 1 + c.Aimp * (T - 25)

variable {c : Coeffs}

/-- **C235a.** All five quantities are non-negative and none falls with light. -/
theorem light_mono {e e' T : ℝ} (he : 0 < e) (hee : e ≤ e') (R : Regular c e' T) :
    (0 ≤ isc c e T ∧ isc c e T ≤ isc c e' T) ∧ (0 ≤ imp c e T ∧ imp c e T ≤ imp c e' T) ∧ (0 ≤ voc c e T ∧ voc c e T ≤ voc c e' T) ∧
    (0 ≤ vmp c e T ∧ vmp c e T ≤ vmp c e' T) ∧ 0 ≤ imp c e T * vmp c e T ∧ imp c e T * vmp c e T ≤ imp c e' T * vmp c e' T := by
  obtain ⟨hI, hP, hN, hd, hC0, hr, hC3, hs, hm1, hm2, hw1, hw2⟩ := R
  have he' : 0 < e' := he.trans_le hee
  have hL : Real.log e ≤ Real.log e' := Real.log_le_log he hee
  have a1 : 0 ≤ isc c e T ∧ isc c e T ≤ isc c e' T := by
    unfold isc
    refine ⟨by positivity, ?_⟩
    gcongr
  have lo : ∀ s, 0 ≤ s → s ≤ 2 * e' → 0 ≤ c.C0 + c.C1 * s := by
    intro s s0 s1
    rcases le_total 0 c.C1 with h | h
    · positivity
    · have := mul_le_mul_of_nonpos_left s1 h
      linarith
  have a2 : 0 ≤ imp c e T ∧ imp c e T ≤ imp c e' T := by
    have k1 : 0 ≤ c.C0 * e + c.C1 * e ^ 2 := by
      have := mul_nonneg he.le (lo e he.le (by linarith))
      linarith
    have k2 : c.C0 * e + c.C1 * e ^ 2 ≤ c.C0 * e' + c.C1 * e' ^ 2 := by
      have := mul_nonneg (sub_nonneg.2 hee) (lo (e + e') (by linarith) (by linarith))
      linarith
    unfold imp
    refine ⟨by positivity, ?_⟩
    gcongr
  have a3 : 0 ≤ voc c e T ∧ voc c e T ≤ voc c e' T := by
    refine ⟨le_max_left _ _, max_le_max_left 0 ?_⟩
    have k1 := mul_le_mul_of_nonneg_left hL (mul_nonneg hN hd)
    have k2 := mul_nonneg_of_nonpos_of_nonpos hm1 (sub_nonpos.2 hee)
    linarith
  have a4 : 0 ≤ vmp c e T ∧ vmp c e T ≤ vmp c e' T := by
    refine ⟨le_max_left _ _, max_le_max_left 0 ?_⟩
    have k2 := mul_nonneg_of_nonpos_of_nonpos hm2 (sub_nonpos.2 hee)
    have k3 : c.delta T * (Real.log e + Real.log e') ≤ 2 * (c.delta T * Real.log e') := by
      have := mul_le_mul_of_nonneg_left hL hd
      linarith
    have k4 := mul_le_mul_of_nonpos_left k3 hC3
    have k5 := mul_nonneg (mul_nonneg (mul_nonneg hN hd) (sub_nonneg.2 hL)) (show 0 ≤ c.C2 + c.C3 * (c.delta T * (Real.log e + Real.log e')) by linarith)
    linarith
  exact ⟨a1, a2, a3, a4, mul_nonneg a2.1 a4.1, mul_le_mul a2.2 a4.2 a4.1 (a2.1.trans a2.2)⟩

/-- Up to one sun the conditions on the slope follow from signs of the coefficients. -/
theorem slope_of_signs {e T : ℝ} (h0 : 0 < e) (h1 : e ≤ 1) (hd : 0 ≤ c.delta T) (hC2 : 0 ≤ c.C2) (hC3 : c.C3 ≤ 0) : 0 ≤ c.C2 + 2 * c.C3 * (c.delta T * Real.log e) := by
  have hL : Real.log e ≤ 0 := Real.log_nonpos h0.le h1
  have := mul_nonneg_of_nonpos_of_nonpos (mul_nonpos_of_nonneg_of_nonpos (zero_le_two : (0:ℝ) ≤ 2) hC3) (mul_nonpos_of_nonneg_of_nonpos hd hL)
  linarith

/-! ### The chain -/

/-- A dictionary that holds the coefficients. -/
structure Holds (d : PyDict PVal) (c : Coeffs) : Prop where
  Isco : entry d "Isco" = some (fin c.Isco)
  Impo : entry d "Impo" = some (fin c.Impo)
  Voco : entry d "Voco" = some (fin c.Voco)
  Vmpo : entry d "Vmpo" = some (fin c.Vmpo)
  Aisc : entry d "Aisc" = some (fin c.Aisc)
  Aimp : entry d "Aimp" = some (fin c.Aimp)
  C0 : entry d "C0" = some (fin c.C0)
  C1 : entry d "C1" = some (fin c.C1)
  C2 : entry d "C2" = some (fin c.C2)
  C3 : entry d "C3" = some (fin c.C3)
  Bvmpo : entry d "Bvmpo" = some (fin c.Bvmpo)
  Mbvmp : entry d "Mbvmp" = some (fin c.Mbvmp)
  Bvoco : entry d "Bvoco" = some (fin c.Bvoco)
  Mbvoc : entry d "Mbvoc" = some (fin c.Mbvoc)
  N : entry d "N" = some (fin c.N)
  Ns : entry d "Cells_in_Series" = some (fin c.Ns)

/-- An array of Sandia modules: modules in series, strings. -/
structure Fit (a : PvArr) (c : Coeffs) (n S : ℝ) : Prop where
  holds : Holds a.module_parameters c
  series : a.modules_per_string = fin n
  strings : a.strings = fin S

private theorem point {a : PvArr} {n S : ℝ} (F : Fit a c n S) {e T : ℝ} (h0 : 0 < e) :
    ∃ x xx, sapmOf a (fin e) (fin T) = .ok ⟨fin (isc c (e / 1000) T), fin (imp c (e / 1000) T), fin (voc c (e / 1000) T), fin (vmp c (e / 1000) T),
      fin (imp c (e / 1000) T * vmp c (e / 1000) T), x, xx⟩ := by
  have D := F.holds
  obtain ⟨x, xx, hv⟩ := sapm_value c (IXO := optNum a.module_parameters "IXO") (C4 := optNum a.module_parameters "C4") (C5 := optNum a.module_parameters "C5")
    (IXXO := optNum a.module_parameters "IXXO") (C6 := optNum a.module_parameters "C6") (C7 := optNum a.module_parameters "C7") (T := T) (T0 := 25) h0
    (show (0 : ℝ) < 1000 by norm_num)
  refine ⟨x, xx, ?_⟩
  unfold sapmOf
  rw [getNums_of (xs := [fin c.Bvmpo, fin c.Mbvmp, fin c.Bvoco, fin c.Mbvoc, fin c.N, fin c.Ns, fin c.Isco, fin c.Aisc, fin c.Impo, fin c.C0, fin c.C1, fin c.Aimp, fin c.Voco,
    fin c.Vmpo, fin c.C2, fin c.C3]) (by simp [D.Isco, D.Impo, D.Voco, D.Vmpo, D.Aisc, D.Aimp, D.C0, D.C1, D.C2, D.C3, D.Bvmpo, D.Mbvmp, D.Bvoco, D.Mbvoc, D.N, D.Ns])]
  simp only [Except.bind]
  have e25 : (25 : Fl) = fin 25 := ofNat_eq
  have e1000 : (1000 : Fl) = fin 1000 := ofNat_eq
  rw [e25, e1000]
  exact congrArg Except.ok hv

/-- **C235b.** What a chain reports for an array of Sandia modules in the light, column by column: the published equations at the reported effective irradiance and cell temperature, currents
times the strings, voltages times the modules in series, power times both, all times the factor of the system losses. -/
theorem dc_columns {ch : Chain} {s : Site} {x : Input} {r q : Results} (h : Ran ch s x r q) (ho : ch.ohmic = .no_loss) (hM : ch.dc = some .sapm) {k i : ℕ} {a : PvArr}
    (ha : ch.system.arrays[k]? = some a) {n S : ℝ} (F : Fit a c n S) {e T : ℝ} (hl : Light q k i e T) (h0 : 0 < e) {f : ℝ} (hf : q.losses = some (fin f)) :
    Column q k i "i_sc" (isc c (e / 1000) T * S * f) ∧ Column q k i "i_mp" (imp c (e / 1000) T * S * f) ∧ Column q k i "v_oc" (voc c (e / 1000) T * n * f) ∧
    Column q k i "v_mp" (vmp c (e / 1000) T * n * f) ∧ Column q k i "p_mp" (imp c (e / 1000) T * vmp c (e / 1000) T * n * S * f) := by
  obtain ⟨f', hf', pw⟩ := power_of h
  obtain rfl := Option.some.inj (hf'.symm.trans hf)
  obtain ⟨E, t, d, e1, e2, e3, d0, d1, h1, h2, h3⟩ := pw k a ha
  obtain ⟨E', t', l1, l2, l3, l4⟩ := hl
  obtain rfl := Option.some.inj (e1.symm.trans l1)
  obtain rfl := Option.some.inj (e2.symm.trans l2)
  unfold DcSpec at h1
  simp only [hM] at h1
  obtain ⟨fr, o, rfl, g1, g2⟩ := h1
  unfold OhmicSpec at h2
  simp only [ho] at h2
  subst h2
  obtain ⟨xx, xxx, hp⟩ := point F (T := T) h0
  have hoi := g1 i
  rw [l3, l4, hp] at hoi
  have hoi := (Except.ok.inj hoi).symm
  have col : ∀ (name : String) (g : SapmOut → Fl) (v : ℝ), (sapmFrame o).get? name = some (fun i => g (o i)) → scaledBy a name (g (o i)) = fin v → Column q k i name (v * f) := by
    intro name g v hg hv
    have hcol : fr.get? name = some fun i => scaledBy a name (g (o i)) := by
      rw [g2, hg]; rfl
    unfold LossSpec at h3
    cases hl : ch.losses with
    | no_loss =>
      simp only [hl] at h3
      obtain ⟨rfl, e⟩ := h3
      rw [one_eq, fin_inj] at e
      exact ⟨fr, _, e3, hcol, by rw [hv, e, mul_one]⟩
    | pvwatts =>
      simp only [hl] at h3
      obtain ⟨l, -, -, h3⟩ := h3
      cases d with
      | series _ => simp at h3
      | frame f' => exact ⟨f', _, e3, by rw [h3, hcol]; rfl, by dsimp only; rw [hv, fin_mul]⟩
  refine ⟨col _ SapmOut.i_sc _ ?_ ?_, col _ SapmOut.i_mp _ ?_ ?_, col _ SapmOut.v_oc _ ?_ ?_, col _ SapmOut.v_mp _ ?_ ?_, col _ SapmOut.p_mp _ ?_ ?_⟩
  all_goals first
    | (rw [hoi]; simp only [scaledBy, F.series, F.strings]; simp)
    | simp [sapmFrame, PyDict.get?]

/-- An array with non-negative numbers of modules and strings. -/
structure Sensible (n S : ℝ) : Prop where
  n0 : 0 ≤ n
  S0 : 0 ≤ S

/-- **C235c.** At the same cell temperature an array with more effective irradiance reports no less DC power, current and voltage. -/
theorem more_light {ch : Chain} {s s' : Site} {x x' : Input} {r r' q q' : Results} (h : Ran ch s x r q) (h' : Ran ch s' x' r' q') (ho : ch.ohmic = .no_loss)
    (hM : ch.dc = some .sapm) {k i i' : ℕ} {a : PvArr} (ha : ch.system.arrays[k]? = some a) {n S : ℝ} (F : Fit a c n S) (Z : Sensible n S) {e e' T : ℝ}
    (hl : Light q k i e T) (hl' : Light q' k i' e' T) (h0 : 0 < e) (hee : e ≤ e') (R : Regular c (e' / 1000) T) {f : ℝ} (hf : q.losses = some (fin f)) (f0 : 0 ≤ f) :
    ∀ name ∈ ["i_sc", "i_mp", "v_oc", "v_mp", "p_mp"], ∃ v v', Column q k i name v ∧ Column q' k i' name v' ∧ 0 ≤ v ∧ v ≤ v' := by
  have hf' : q'.losses = some (fin f) := by rw [← same_losses h h' ha, hf]
  obtain ⟨n0, S0⟩ := Z
  obtain ⟨p1, p2, p3, p4, p5⟩ := dc_columns h ho hM ha F hl h0 hf
  obtain ⟨p1', p2', p3', p4', p5'⟩ := dc_columns h' ho hM ha F hl' (h0.trans_le hee) hf'
  obtain ⟨⟨a1, b1⟩, ⟨a2, b2⟩, ⟨a3, b3⟩, ⟨a4, b4⟩, a5, b5⟩ := light_mono (c := c) (e := e / 1000) (by positivity) (by gcongr) R
  intro name hn
  simp only [List.mem_cons, List.not_mem_nil, or_false] at hn
  rcases hn with rfl | rfl | rfl | rfl | rfl
  · exact ⟨_, _, p1, p1', by positivity, by gcongr⟩
  · exact ⟨_, _, p2, p2', by positivity, by gcongr⟩
  · exact ⟨_, _, p3, p3', by positivity, by gcongr⟩
  · exact ⟨_, _, p4, p4', by positivity, by gcongr⟩
  · exact ⟨_, _, p5, p5', by positivity, by gcongr⟩

/-! ### Example: an array of two strings of ten modules, a bright and a dull hour -/

open Pvlib.Props.ChainTotal Pvlib.Props.ChainWitness Pvlib.Props.ChainConfig

/-- A crystalline silicon module of 60 cells. -/
def demo : Coeffs := ⟨8.2, 7.6, 37, 30, 0.0004, 0.0001, 1.01, -0.01, 0.28, -5.4, -0.13, 0, -0.13, 0, 1.1, 60⟩

def dict : PyDict PVal :=
  [("Isco", .num (fin 8.2)), ("Impo", .num (fin 7.6)), ("Voco", .num (fin 37)), ("Vmpo", .num (fin 30)), ("Aisc", .num (fin 0.0004)), ("Aimp", .num (fin 0.0001)), ("C0", .num (fin 1.01)),
    ("C1", .num (fin (-0.01))), ("C2", .num (fin 0.28)), ("C3", .num (fin (-5.4))), ("Bvmpo", .num (fin (-0.13))), ("Mbvmp", .num (fin 0)), ("Bvoco", .num (fin (-0.13))),
    ("Mbvoc", .num (fin 0)), ("N", .num (fin 1.1)), ("Cells_in_Series", .num (fin 60)), ("A0", .num (fin 0.9)), ("A1", .num (fin 0.1))]

def plant : System := ⟨[{ exArray with module_parameters := dict, modules_per_string := fin 10, strings := fin 2 }], demoInv, []⟩

/-- The chain that `ModelChain(plant, location, aoi_model='no_loss')` builds. -/
def chain : Chain := ⟨plant, "ineichen", "haydavies", "nrel_numpy", "kastenyoung1989", some .sapm, .sandia, .no_loss, .no_loss, .sapm, .no_loss, .no_loss⟩

theorem chain_built : mkChain plant { aoi_model := some "no_loss" } = .ok chain := by
  rw [chain_iff]
  refine ⟨rfl, rfl, rfl, rfl, rfl, ?_, ?_, ?_, ?_, ?_, ?_, ?_⟩
  · rw [show (⟨chain.dc, none⟩ : Assigned DcModel) = ⟨some .sapm, none⟩ from rfl, dc_inferred]
    refine ⟨by simp [First, dcMarks, HasAll, plant, dict, PyDict.get?], _, rfl, by simp [HasAll, plant, dict, PyDict.get?]⟩
  · rw [ac_inferred]
    simp [chain, plant, demoInv, PyDict.get?]
  · rw [aoi_named]
    decide +kernel
  · rw [spectral_cases]
    exact .inl rfl
  · rw [Pvlib.Props.ChainConfig.temp_inferred]
    simp [First, tempMarks, HasAll, chain, plant, exTemp, PyDict.get?]
  · decide +kernel
  · decide +kernel

theorem fit : Fit { exArray with module_parameters := dict, modules_per_string := fin 10, strings := fin 2 } demo 10 2 := by
  refine ⟨?_, rfl, rfl⟩
  constructor <;> simp [entry, dict, PyDict.get?, demo]

private theorem regular {e T : ℝ} (h0 : 0 < e) (h1 : e ≤ 1) (hT : 0 ≤ T + 273.15) (_ : T ≤ 1000) : Regular demo e T := by
  have hd : 0 ≤ demo.delta T := by unfold Coeffs.delta; simp only [demo]; positivity
  refine ⟨by norm_num [demo], by norm_num [demo], by norm_num [demo], hd, by norm_num [demo], ?_, by norm_num [demo], slope_of_signs h0 h1 hd (by norm_num [demo]) (by norm_num [demo]), ?_, ?_,
    ?_, ?_⟩ <;> simp only [demo] <;> norm_num <;> linarith

theorem able (s : Site) : AblePower chain s := by
  have hk : ∀ k, Numeric exArray.temperature_model_parameters k := fun k => (exNumeric exArray (by simp [exSystem]) k).2
  refine ⟨fun a ha w _ => ?_, fun _ a ha => ?_, ⟨.sapm, rfl, fun a ha => ?_⟩, .inl rfl, .inl rfl, .inr ⟨rfl, by simp [chain], fun ps vs hp hv => ?_⟩⟩
  · simp only [chain, plant, List.mem_singleton] at ha
    subst ha
    exact ⟨_, temp_sapm s.sigma _ w (ca := fin (-3.56)) (cb := fin (-0.0750)) (dT := 3) (by simp [exTemp, entry, PyDict.get?]) (by simp [exTemp, entry, PyDict.get?])
      (by simp [exTemp, entry, PyDict.get?]) (hk _)⟩
  · simp only [chain, plant, List.mem_singleton] at ha
    subst ha
    exact ⟨3, getNum_of (by simp [exTemp, entry, PyDict.get?])⟩
  · refine dc_accepted_computes plant none .sapm ?_ ?_ a ha
    · have := ((chain_iff plant _ chain).mp chain_built).dc
      exact this
    · intro a ha k
      simp only [plant, List.mem_singleton] at ha
      subst ha
      exact numeric_of (by simp [dict]) k
  · match ps, vs, hp, hv with
    | [x], [y], _, _ => exact ⟨_, ac_sandia_one plant (by decide +kernel) rfl demoInv_sandia (p := .tuple [x]) (v := .tuple [y]) ⟨rfl, rfl⟩ ⟨rfl, rfl⟩⟩

private theorem runs (n : Numerics) (t : Irradiance.PerezTable) (r : Results) (e T : ℝ) :
    ∃ q, runModelFromEff chain (exSite n t) (.frame (hour e T)) r = .ok q ∧ Light q 0 0 e T ∧ q.losses = some (fin 1) := by
  obtain ⟨q, h⟩ := run_eff_total (x := .frame (hour e T)) (able (exSite n t)) (by simp [chain, plant]) (by simp [Strict, chain, plant, Bare]) (by
      intro d hd k hk
      simp only [frames, List.mem_cons, List.not_mem_nil, or_false] at hd
      subst hd
      simp only [List.mem_singleton] at hk
      subst hk
      simp [hour, PyDict.get?]) r
  obtain ⟨times, f, -, hl, p⟩ := run_eff_array h
  obtain ⟨w, e', t', d, g1, g2, g3, g4, g5, g6, d0, d1, u1, u2, u3⟩ := p 0 _ (List.getElem?_eq_getElem (by simp [chain, plant]))
  obtain rfl : hour e T = w := by simpa [frameFor] using g1
  have he : e' = fun _ => fin e := by simp [hour, PyDict.get?] at g2; exact g2.symm
  have ht : t' = fun _ => fin T := by simpa [CellSpec, hour, PyDict.get?] using g6
  refine ⟨q, h, ⟨e', t', g3, g4, by rw [he], by rw [ht]⟩, ?_⟩
  rw [hl, u3.2, one_eq]

/-- An hour with 800 W/m2 gives no less than one with 500. -/
example (n : Numerics) (t : Irradiance.PerezTable) (r : Results) : ∃ q q' P P', runModelFromEff chain (exSite n t) (.frame (hour 500 45)) r = .ok q ∧
    runModelFromEff chain (exSite n t) (.frame (hour 800 45)) r = .ok q' ∧ Column q 0 0 "p_mp" P ∧ Column q' 0 0 "p_mp" P' ∧ P ≤ P' := by
  obtain ⟨q, h, l, f⟩ := runs n t r 500 45
  obtain ⟨q', h', l', -⟩ := runs n t r 800 45
  obtain ⟨P, P', a1, a2, -, a3⟩ := more_light (.inr (.inr h)) (.inr (.inr h')) rfl rfl rfl fit ⟨by norm_num, by norm_num⟩ l l' (by norm_num) (by norm_num)
    (regular (by norm_num) (by norm_num) (by norm_num) (by norm_num)) f (by norm_num) "p_mp" (by simp)
  exact ⟨q, q', P, P', h, h', a1, a2, a3⟩

end Pvlib.Props.SapmLight
end
