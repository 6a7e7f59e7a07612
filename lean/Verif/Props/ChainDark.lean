import Verif.Props.ChainStrings

/-! # Property C202: no light, no power -/

noncomputable section
open scoped Classical
namespace Pvlib.Props.ChainDark
open Fl Pvlib.Tools Pvlib.PvFunctions Pvlib.PvSystem Pvlib.ModelChain Pvlib.Props.PvSystem Pvlib.Props.ChainRun
  Pvlib.Props.ChainArrays Pvlib.Props.ArrayClass Pvlib.Props.ChainFacts

/-! ### Specification -/

/-- No light: a zero or missing value. -/
def Dark (x : Fl) : Prop := x = fin 0 ∨ x = nan

/-- All three irradiances of a frame are zero or missing at time `i`. -/
def DarkWeather (w : DF) (i : ℕ) : Prop :=
  ∀ name ∈ ["dni", "ghi", "dhi"], ∀ v, w.cols.get? name = some v → Dark (v i)

/-! ### Arithmetic of zero and missing values -/

private theorem d_mul {x : Fl} (h : Dark x) (y : Fl) : Dark (x * y) := by
  rcases h with rfl | rfl <;> cases y <;> simp [Dark]

private theorem d_mul' {x : Fl} (h : Dark x) (y : Fl) : Dark (y * x) := by rw [mul_comm']; exact d_mul h y

private theorem d_add {x y : Fl} (h : Dark x) (h' : Dark y) : Dark (x + y) := by
  rcases h with rfl | rfl <;> rcases h' with rfl | rfl <;> simp [Dark]

private theorem d_sub {x y : Fl} (h : Dark x) (h' : Dark y) : Dark (x - y) := by
  rcases h with rfl | rfl <;> rcases h' with rfl | rfl <;> simp [Dark]

private theorem d_div {x : Fl} (h : Dark x) (y : Fl) : Dark (x / y) := by
  rcases h with rfl | rfl
  · cases y <;> simp [Dark, fin_div', em']
  · cases y <;> simp [Dark]

private theorem d_max {x : Fl} (h : Dark x) : Dark (maximum x 0) := by
  rcases h with rfl | rfl <;> simp [Dark, zero_eq]

private theorem d_where {c : Prop} [Decidable c] {x y : Fl} (h : Dark x) (h' : Dark y) : Dark (npwhere c x y) := by
  unfold npwhere; split_ifs <;> assumption

private theorem d_zero : Dark 0 := Or.inl rfl

private theorem d_sum (l : List Fl) (h : ∀ x ∈ l, Dark x) : Dark (Fl.sum l) := by
  have : ∀ (l : List Fl) (a : Fl), Dark a → (∀ x ∈ l, Dark x) → Dark (l.foldl (· + ·) a) := by
    intro l
    induction l with
    | nil => intro a ha _; exact ha
    | cons x l ih =>
      intro a ha hl
      exact ih _ (d_add ha (hl x List.mem_cons_self)) fun y hy => hl y (List.mem_cons_of_mem _ hy)
  exact this l 0 d_zero h

private theorem ite_cases {α : Type} {c : Prop} [Decidable c] {a b z : α} (h : (if c then a else b) = z) : (c ∧ a = z) ∨ (¬ c ∧ b = z) := by
  split_ifs at h with hc
  · exact .inl ⟨hc, h⟩
  · exact .inr ⟨hc, h⟩

/-! ### Transposition -/

/-- **C202**: without light on the horizontal there is none on any plane, whatever the transposition model, the position of the sun,
the orientation, the albedo and the extraterrestrial radiation: every result of `get_total_irradiance` is zero or missing. -/
theorem dark_plane {pt : String → Option Irradiance.PerezTable} {f : ℕ → ℕ → Fl → Fl} {tilt az z saz dni ghi dhi : Fl}
    {extra am : Option Fl} {al : Fl} {st : Option String} {model mp : String} {dc : Bool} {p : Irradiance.Poa}
    (h1 : Dark dni) (h2 : Dark ghi) (h3 : Dark dhi)
    (h : Irradiance.getTotalIrradiance pt f tilt az z saz dni ghi dhi extra am al st model mp dc = .ok p) :
    Dark p.poa_global ∧ Dark p.poa_direct ∧ Dark p.poa_diffuse ∧ Dark p.poa_sky_diffuse ∧ Dark p.poa_ground_diffuse := by
  unfold Irradiance.getTotalIrradiance at h
  obtain ⟨sky, hs, h⟩ := bind_ok h
  obtain ⟨g, hg, h⟩ := bind_ok h
  obtain rfl := Except.ok.inj h
  have dg : Dark g := by
    unfold Irradiance.groundDiffuse at hg
    dsimp only at hg
    cases st with
    | none => obtain rfl := Except.ok.inj hg; exact d_mul (d_mul (d_mul h2 _) _) _
    | some s =>
      dsimp only at hg
      split at hg
      · obtain rfl := Except.ok.inj hg; exact d_mul (d_mul (d_mul h2 _) _) _
      · simp at hg
  have ds : Dark sky.poa_sky_diffuse := by
    have strip : ∀ s : Irradiance.Sky, (if dc then s else ⟨s.poa_sky_diffuse, []⟩ : Irradiance.Sky).poa_sky_diffuse = s.poa_sky_diffuse := by
      intro s; cases dc <;> rfl
    unfold Irradiance.getSkyDiffuse at hs
    dsimp only at hs
    generalize pyLower model = m at hs
    rcases ite_cases hs with ⟨-, hs⟩ | ⟨-, hs⟩
    · simp at hs
    rcases ite_cases hs with ⟨-, hs⟩ | ⟨-, hs⟩
    · simp at hs
    rcases ite_cases hs with ⟨-, hs⟩ | ⟨-, hs⟩
    · obtain rfl := Except.ok.inj hs; rw [strip]; exact d_mul (d_mul h3 _) _
    rcases ite_cases hs with ⟨-, hs⟩ | ⟨-, hs⟩
    · obtain rfl := Except.ok.inj hs; exact d_mul (d_mul (d_mul h3 _) _) _
    rcases ite_cases hs with ⟨-, hs⟩ | ⟨-, hs⟩
    · obtain rfl := Except.ok.inj hs; rw [strip]
      exact d_add (d_max (d_mul (d_mul h3 _) _)) (d_max (d_mul h3 _))
    rcases ite_cases hs with ⟨-, hs⟩ | ⟨-, hs⟩
    · obtain rfl := Except.ok.inj hs; rw [strip]; exact d_mul h3 _
    rcases ite_cases hs with ⟨-, hs⟩ | ⟨-, hs⟩
    · obtain rfl := Except.ok.inj hs; exact d_max (d_add (d_div (d_mul h3 _) _) (d_div (d_mul (d_mul h2 _) _) _))
    rcases ite_cases hs with ⟨-, hs⟩ | ⟨-, hs⟩
    · split at hs
      · simp at hs
      · obtain rfl := Except.ok.inj hs; rw [strip]; exact d_where d_zero (d_max (d_mul h3 _))
    rcases ite_cases hs with ⟨-, hs⟩ | ⟨-, hs⟩
    · obtain rfl := Except.ok.inj hs; rw [strip]; exact d_max (d_mul h3 _)
    · simp at hs
  have dd : Dark (maximum (dni * Fl.cos (radians (Irradiance.aoi tilt az z saz))) 0) := d_max (d_mul h1 _)
  exact ⟨d_add dd (d_add ds dg), dd, d_add ds dg, ds, dg⟩

/-! ### DC and AC power -/

private theorem d_pvwatts {e t p0 g tr : Fl} {k : Option Fl} {cap : Bool} (h : Dark e) : Dark (pvwattsDc e t p0 g tr k cap) := by
  have d0 : Dark (e * fin 0.001 * p0 * (1 + g * (t - tr))) := d_mul (d_mul (d_mul h _) _) _
  unfold pvwattsDc
  dsimp only
  cases k with
  | none => exact d0
  | some k =>
    dsimp only
    have e1 : Dark (npwhere (e ≤ 200) (k * (1 - (1 - e / 200) ^ 4)) (k * (1000 - e) / (1000 - 200))) := by
      rcases h with rfl | rfl
      · rw [npwhere, if_pos (by rw [ofNat_eq, fin_le]; norm_num)]
        refine d_mul' ?_ k
        left
        simp only [ofNat_eq, one_eq]
        rw [fin_div (by norm_num)]
        simp
      · right
        rw [npwhere, if_neg (by simp)]
        cases k <;> simp [ofNat_eq]
    have e2 : Dark (if cap then npwhere (1000 ≤ e) 0 (npwhere (e ≤ 200) (k * (1 - (1 - e / 200) ^ 4)) (k * (1000 - e) / (1000 - 200)))
        else npwhere (e ≤ 200) (k * (1 - (1 - e / 200) ^ 4)) (k * (1000 - e) / (1000 - 200))) := by
      split_ifs
      · exact d_where d_zero e1
      · exact e1
    exact d_where d_zero (d_sub d0 (d_mul' e2 _))

/-- DC power of an array without light. -/
private theorem d_power {c : Chain} {s : Site} {a : PvArr} {e t : Ser} {f : Fl} {d : Dc} (hdc : c.dc = some .pvwatts)
    (h : PowerSpec c s a e t f d) : ∃ p, d = .series p ∧ ∀ i, Dark (e i) → Dark (p i) := by
  obtain ⟨d0, d1, h1, h2, h3⟩ := h
  unfold DcSpec at h1
  simp only [hdc] at h1
  obtain ⟨p, q, rfl, hp⟩ := h1
  have dp : ∀ i, Dark (e i) → Dark (p i) := by
    intro i he
    obtain ⟨g1, g2⟩ := hp i
    rw [g2]
    have : Dark (q i) := by
      unfold pvwattsDcOf at g1
      obtain ⟨xs, -, g1⟩ := bind_ok g1
      split at g1
      · obtain ⟨kw, -, g1⟩ := bind_ok g1
        rw [← Except.ok.inj g1]
        exact d_pvwatts he
      · simp at g1
    unfold scaledBy
    split_ifs
    · exact d_mul this _
    · exact d_mul this _
    · exact d_mul (d_mul this _) _
  unfold OhmicSpec at h2
  cases ho : c.ohmic with
  | dc_ohms_from_percent =>
    simp only [ho] at h2
    obtain ⟨_, _, _, _, _, h, _⟩ := h2
    simp at h
  | no_loss =>
    simp only [ho] at h2
    subst h2
    unfold LossSpec at h3
    cases hl : c.losses with
    | no_loss => simp only [hl] at h3; obtain ⟨rfl, -⟩ := h3; exact ⟨p, rfl, dp⟩
    | pvwatts =>
      simp only [hl] at h3
      obtain ⟨l, -, -, h3⟩ := h3
      cases d with
      | frame _ => simp at h3
      | series p' => simp only at h3; exact ⟨p', rfl, fun i he => by rw [h3]; exact d_mul (dp i he) _⟩

private theorem d_inverter {P : Fl} (h : Dark P) {pdc0 en er : ℝ} (p0 : 0 < pdc0) (e0 : 0 < en) :
    fillna0 (Inverter.pvwatts P (fin pdc0) (fin en) (fin er)) = fin 0 := by
  rcases h with rfl | rfl
  · have hp : (0 : ℝ) ≤ en * pdc0 := by positivity
    unfold Inverter.pvwatts
    dsimp only
    generalize (fin en / fin er * _ : Fl) = x
    have : Dark (x * fin 0) := d_mul' (Or.inl rfl) x
    rcases this with h | h <;> rw [h] <;> simp [fillna0, hp]
  · unfold Inverter.pvwatts
    dsimp only
    generalize (fin en / fin er * _ : Fl) = x
    have : x * nan = nan := by cases x <;> rfl
    rw [this]
    simp [fillna0]

private theorem d_ac {c : Chain} {q : Results} (hn : c.system.arrays ≠ []) (h : AcFrom c q) (hac : c.ac = .pvwatts)
    {pdc0 en er : ℝ} (hp : entry c.system.inverter_parameters "pdc0" = some (fin pdc0))
    (h1 : Numeric c.system.inverter_parameters "eta_inv_nom") (h2 : Numeric c.system.inverter_parameters "eta_inv_ref")
    (h3 : (entry c.system.inverter_parameters "eta_inv_nom").getD 0.96 = fin en)
    (h4 : (entry c.system.inverter_parameters "eta_inv_ref").getD 0.9637 = fin er) (p0 : 0 < pdc0) (e0 : 0 < en) {i : ℕ}
    (hd : ∀ k < c.system.arrays.length, ∃ p, part k q.dc = some (.series p) ∧ Dark (p i)) :
    ∃ ac, q.ac = some ac ∧ ac i = fin 0 := by
  obtain ⟨ac, ds, a1, a2, a3, a4⟩ := h
  refine ⟨ac, a1, ?_⟩
  unfold AcSpec at a4
  simp only [hac] at a4
  obtain ⟨ps, z, b1, b2⟩ := a4
  obtain ⟨z1, z2⟩ := b2 i
  have lp := maps_length b1
  have hps : ∀ x ∈ ps.map fun p => p i, Dark x := by
    intro x hx
    obtain ⟨p, hp, rfl⟩ := List.mem_map.mp hx
    obtain ⟨k, hk, rfl⟩ := List.mem_iff_getElem.mp hp
    have hk' : k < c.system.arrays.length := by omega
    obtain ⟨p', e1, e2⟩ := hd k hk'
    rw [a3 k hk'] at e1
    have := congrArg (fun l => l[k]?) b1
    simp only [List.getElem?_map, e1, List.getElem?_eq_getElem hk, Option.map_some, Dc.power, Option.some.injEq, Except.ok.injEq] at this
    rw [← this]
    exact e2
  rw [ac_pvwatts c.system (m := "pvwatts") (by decide +kernel) hn (p := .tuple (ps.map fun p => p i)) (ps := ps.map fun p => p i)
    ⟨by simp [lp, a2], rfl⟩ hp h1 h2, h3, h4] at z1
  rw [z2, ← Except.ok.inj z1]
  refine d_inverter ?_ p0 e0
  split_ifs with h1
  · obtain ⟨p, rfl⟩ := List.length_eq_one_iff.mp (by omega : ps.length = 1)
    exact hps _ (by simp)
  · exact d_sum _ hps

/-- A PVWatts chain: the DC model, the inverter model, and an inverter with positive finite rating and efficiencies. -/
structure WattsChain (c : Chain) : Prop where
  arrays : c.system.arrays ≠ []
  dc : c.dc = some .pvwatts
  ac : c.ac = .pvwatts
  rating : ∃ pdc0 : ℝ, entry c.system.inverter_parameters "pdc0" = some (fin pdc0) ∧ 0 < pdc0
  numeric : Numeric c.system.inverter_parameters "eta_inv_nom" ∧ Numeric c.system.inverter_parameters "eta_inv_ref"
  efficiency : ∃ en er : ℝ, (entry c.system.inverter_parameters "eta_inv_nom").getD 0.96 = fin en ∧
    (entry c.system.inverter_parameters "eta_inv_ref").getD 0.9637 = fin er ∧ 0 < en

private theorem d_chain {c : Chain} (W : WattsChain c) {q : Results} (h : AcFrom c q) {i : ℕ}
    (hd : ∀ k < c.system.arrays.length, ∃ p, part k q.dc = some (.series p) ∧ Dark (p i)) : ∃ ac, q.ac = some ac ∧ ac i = fin 0 := by
  obtain ⟨p0, e1, e2⟩ := W.rating
  obtain ⟨en, er, e3, e4, e5⟩ := W.efficiency
  exact d_ac W.arrays h W.ac e1 W.numeric.1 W.numeric.2 e3 e4 e2 e5 hd

/-- **C202**: where no array has any effective irradiance (given as zero, or missing), the AC power of a PVWatts chain is exactly 0,
never NaN, whatever the temperatures, the loss parameters and the parameters of the modules. -/
theorem dark_effective {c : Chain} {s : Site} {x : Input} {r q : Results} (W : WattsChain c) (h : runModelFromEff c s x r = .ok q) {i : ℕ}
    (hd : ∀ k < c.system.arrays.length, ∀ w v, frameFor x k = some w → w.cols.get? "effective_irradiance" = some v → Dark (v i)) :
    (∀ k < c.system.arrays.length, ∃ p, part k q.dc = some (.series p) ∧ Dark (p i)) ∧ ∃ ac, q.ac = some ac ∧ ac i = fin 0 := by
  obtain ⟨times, f, t1, -, p⟩ := run_eff_array h
  have hdc : ∀ k < c.system.arrays.length, ∃ p, part k q.dc = some (.series p) ∧ Dark (p i) := by
    intro k hk
    obtain ⟨w, e, t, d, g1, g2, g3, g4, g5, g6, g7⟩ := p k _ (List.getElem?_eq_getElem hk)
    obtain ⟨y, rfl, hy⟩ := d_power W.dc g7
    exact ⟨y, g5, hy i (hd k hk w e g1 g2)⟩
  exact ⟨hdc, d_chain W (run_ac (.inr (.inr h))) hdc⟩

private theorem d_optics {c : Chain} {s : Site} {sp : SolPos} {am : AirMass} {a : PvArr} {w ti : DF} {aoi iam sm e : Ser}
    (h : OpticsSpec c s sp am a w ti aoi iam sm e) {i : ℕ} (h1 : ∀ v, ti.cols.get? "poa_direct" = some v → Dark (v i))
    (h2 : ∀ v, ti.cols.get? "poa_diffuse" = some v → Dark (v i)) : Dark (e i) := by
  obtain ⟨x, y, z, e1, e2, -, e3⟩ := h.effective
  rw [e3]
  exact d_mul' (d_add (d_mul (h1 x e1) _) (d_mul' (h2 y e2) _)) _

/-- **C202**: where no array has any direct or diffuse irradiance on its plane, AC power is exactly 0. -/
theorem dark_poa {c : Chain} {s : Site} {x : Input} {r q : Results} (W : WattsChain c) (h : runModelFromPoa c s x r = .ok q) {i : ℕ}
    (hd : ∀ k < c.system.arrays.length, ∀ w v, frameFor x k = some w →
      w.cols.get? "poa_direct" = some v ∨ w.cols.get? "poa_diffuse" = some v → Dark (v i)) :
    (∀ k < c.system.arrays.length, ∃ p, part k q.dc = some (.series p) ∧ Dark (p i)) ∧ ∃ ac, q.ac = some ac ∧ ac i = fin 0 := by
  obtain ⟨sp, am, times, f, s1, -, p⟩ := run_poa_array h
  have hdc : ∀ k < c.system.arrays.length, ∃ p, part k q.dc = some (.series p) ∧ Dark (p i) := by
    intro k hk
    obtain ⟨w, ti, aoi, iam, sm, e, t, d, h1, h2, h3, h4, h5, h6⟩ := p k _ (List.getElem?_eq_getElem hk)
    obtain ⟨y, rfl, hy⟩ := d_power W.dc h6
    refine ⟨y, h2.dc, hy i (d_optics h4 (fun v hv => hd k hk w v h1 (.inl ?_)) fun v hv => hd k hk w v h1 (.inr ?_))⟩
    · rw [← h3 _ (by simp)]; exact hv
    · rw [← h3 _ (by simp)]; exact hv
  exact ⟨hdc, d_chain W (run_ac (.inr (.inl h))) hdc⟩

/-- **C202**: where the weather of every array is dark (`dni`, `ghi` and `dhi` zero or missing), the AC power of a PVWatts chain is
exactly 0, never NaN: for every transposition, incidence-angle, spectral, temperature and loss model, every mount and every position of
the sun. -/
theorem dark_weather {c : Chain} {s : Site} {x : Input} {r q : Results} (W : WattsChain c) (h : runModel c s x r = .ok q) {i : ℕ}
    (hd : ∀ k < c.system.arrays.length, ∀ w, frameFor x k = some w → DarkWeather w i) :
    (∀ k < c.system.arrays.length, ∃ ti p, part k q.total_irrad = some ti ∧ Dark (colOr ti "poa_global" nan i) ∧
      part k q.dc = some (.series p) ∧ Dark (p i)) ∧ ∃ ac, q.ac = some ac ∧ ac i = fin 0 := by
  obtain ⟨sp, am, times, f, s1, -, p⟩ := run_model_array h
  have hdc : ∀ k < c.system.arrays.length, ∃ ti p, part k q.total_irrad = some ti ∧ Dark (colOr ti "poa_global" nan i) ∧
      part k q.dc = some (.series p) ∧ Dark (p i) := by
    intro k hk
    obtain ⟨w, ti, aoi, iam, sm, e, t, d, h1, h2, h3, h4, h5, h6⟩ := p k _ (List.getElem?_eq_getElem hk)
    obtain ⟨y, rfl, hy⟩ := d_power W.dc h6
    obtain ⟨dni, ghi, dhi, w1, w2, w3, P, rfl, hP⟩ := h3.columns
    have dw := hd k hk w h1
    obtain ⟨g1, g2, g3, -⟩ := dark_plane (dw _ (by simp) _ w1) (dw _ (by simp) _ w2) (dw _ (by simp) _ w3) (hP i)
    refine ⟨_, y, h2.total_irrad, ?_, h2.dc, hy i (d_optics h4 (fun v hv => ?_) fun v hv => ?_)⟩
    · simpa [colOr, poaFrame, PyDict.get?] using g1
    · simp [poaFrame, PyDict.get?] at hv; rw [← hv]; exact g2
    · simp [poaFrame, PyDict.get?] at hv; rw [← hv]; exact g3
  refine ⟨hdc, d_chain W (run_ac (.inl h)) fun k hk => ?_⟩
  obtain ⟨_, p, -, -, h⟩ := hdc k hk
  exact ⟨p, h⟩

/-! ### Examples: two arrays, evening -/

open Pvlib.Props.ChainTotal Pvlib.Props.ChainWitness Pvlib.Props.ChainConfig Pvlib.Props.ChainStrings

/-- Light at noon, none at midnight; `dhi` is missing there. -/
def evening : DF := ⟨[12, 24], [("ghi", fun i => if i = 0 then 800 else 0), ("dni", fun i => if i = 0 then 700 else 0),
  ("dhi", fun i => if i = 0 then 100 else nan)]⟩

example (n : Numerics) (t : Irradiance.PerezTable) (r : Results) : ∃ c q ac, c.system = wattsOf [3, 2] ∧
    runModel c (exSite n t) (.frame evening) r = .ok q ∧ q.ac = some ac ∧ ac 1 = fin 0 := by
  obtain ⟨D, c, hc⟩ := watts_chain [3, 2] (by simp)
  have E := ((pvwatts_preset _ c).mp hc).2.2
  have hs : c.system = wattsOf [3, 2] := by rw [E]
  obtain ⟨q, h⟩ := pvwatts_chain_runs (s := exSite n t) D hc (fun _ _ _ => ⟨_, rfl⟩) (by simp [exSite])
    (x := .frame evening) (.inl trivial) (by
      intro d hd k hk
      simp only [frames, List.mem_singleton] at hd
      subst hd
      simp only [List.mem_cons, List.not_mem_nil, or_false] at hk
      rcases hk with rfl | rfl | rfl <;> simp [evening, PyDict.get?]) r
  have W : WattsChain c := by
    refine ⟨by rw [hs]; exact D.arrays, by rw [E], by rw [E], ⟨200, by rw [hs]; simp [wattsOf, entry, PyDict.get?], by norm_num⟩,
      ⟨by rw [hs]; exact D.inverter _, by rw [hs]; exact D.inverter _⟩, ⟨0.96, 0.9637, ?_, ?_, by norm_num⟩⟩
    · rw [hs]; simp [wattsOf, entry, PyDict.get?, ofScientific_eq]
    · rw [hs]; simp [wattsOf, entry, PyDict.get?, ofScientific_eq]
  obtain ⟨-, ac, h1, h2⟩ := dark_weather W h (i := 1) (by
    intro k _ w hw name hn v hv
    obtain rfl := Option.some.inj hw
    simp only [List.mem_cons, List.not_mem_nil, or_false] at hn
    rcases hn with rfl | rfl | rfl <;> simp [evening, PyDict.get?] at hv <;> rw [← hv] <;> simp [Dark])
  exact ⟨c, q, ac, hs, h, h1, h2⟩

end Pvlib.Props.ChainDark
end
