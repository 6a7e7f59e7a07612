import Verif.Props.ChainLosses
import Verif.Props.ChainStrings
import Verif.Props.Overcast
import Verif.Props.SkyModels

/-! # Property C241: brighter ground under the arrays of a chain -/

noncomputable section
open scoped Classical
namespace Pvlib.Props.ChainGround
open Fl Pvlib.Tools Pvlib.PvFunctions Pvlib.PvSystem Pvlib.ModelChain Pvlib.Irradiance Pvlib.Spec Pvlib.Props.PvSystem Pvlib.Props.ChainRun
  Pvlib.Props.ChainArrays Pvlib.Props.ArrayClass Pvlib.Props.ChainFacts Pvlib.Props.ChainTare Pvlib.Props.ChainMono Pvlib.Props.ChainWarm
  Pvlib.Props.ChainLosses

/-! ### Specification -/

/-- The same chain, over other ground: its arrays differ in `albedo` only. -/
structure ButGround (c c' : Chain) : Prop where
  rest : c' = { c with system := { c.system with arrays := c'.system.arrays } }
  arrays : ∀ (k : ℕ) a, c.system.arrays[k]? = some a → ∃ b : Fl, c'.system.arrays[k]? = some { a with albedo := b }

/-- A value of the plane-of-array irradiance reported for array `k`. -/
def At (q : Results) (k : ℕ) (name : String) (i : ℕ) (v : Fl) : Prop :=
  ∃ ti s, part k q.total_irrad = some ti ∧ ti.cols.get? name = some s ∧ s i = v

/-- What an albedo that is larger by `d` adds on a plane of tilt `t` when the global horizontal irradiance is `g`. -/
def extra (g d t : ℝ) : ℝ := g * d * ((1 - cosDeg t) / 2)

theorem extra_nonneg {g d t : ℝ} (hg : 0 ≤ g) (hd : 0 ≤ d) : 0 ≤ extra g d t :=
  mul_nonneg (mul_nonneg hg hd) (by have := Real.cos_le_one (t * (Real.pi / 180)); unfold cosDeg; linarith)

/-- The hour in question: the ground under array `k` reflects `α` of the light in one chain and `β` in the other, the data's global
horizontal irradiance is `g`, and the array is then tilted by `t`. -/
structure Hour (c c' : Chain) (x : Input) (q : Results) (k i : ℕ) (α β g t : ℝ) : Prop where
  ground : ∃ a, c.system.arrays[k]? = some a ∧ a.albedo = fin α
  ground' : ∃ a, c'.system.arrays[k]? = some a ∧ a.albedo = fin β
  light : ∃ w s, frameFor x k = some w ∧ w.cols.get? "ghi" = some s ∧ s i = fin g
  tilt : ∃ a sp, c.system.arrays[k]? = some a ∧ q.solar_position = some sp ∧ (a.mount.orientation (sp.apparent_zenith i) (sp.azimuth i)).1 = fin t

/-! ### Proofs -/

private theorem sky_same {c c' : Chain} {s : Site} {x : Input} {r r' : Results} {sp sp' : SolPos} {am am' : AirMass} {times times' : List ℝ}
    (hm : c'.solar_position_method = c.solar_position_method) (ha : c'.airmass_model = c.airmass_model)
    (h : SkySpec c s x r sp am times) (h' : SkySpec c' s x r' sp' am' times') : sp = sp' ∧ am = am' ∧ times = times' := by
  have g : SkySpec c s x r' sp' am' times' := ⟨h'.stored, h'.index, by rw [← hm]; exact h'.position, by rw [← ha]; exact h'.airmass⟩
  exact sky_fun (models_refl c) (fun w w' e e' => by rw [e] at e'; obtain rfl := Option.some.inj e'; exact sw_refl w) h g

private theorem sums {tbl : String → Option PerezTable} {f : ℕ → ℕ → Fl → Fl} {tilt az zen saz dni ghi dhi a : Fl} {e am : Option Fl}
    {model mp : String} {rc : Bool} {p : Poa} (h : getTotalIrradiance tbl f tilt az zen saz dni ghi dhi e am a none model mp rc = .ok p) :
    p.poa_global = p.poa_direct + p.poa_diffuse ∧ p.poa_diffuse = p.poa_sky_diffuse + p.poa_ground_diffuse := by
  unfold getTotalIrradiance at h
  cases hs : getSkyDiffuse tbl f tilt az zen saz dni ghi dhi e am model mp rc with
  | error x => rw [hs] at h; simp [bind, Except.bind] at h
  | ok s =>
    rw [hs] at h
    simp only [groundDiffuse, bind, Except.bind, pure, Except.pure, Except.ok.injEq] at h
    subst h
    exact ⟨rfl, rfl⟩

/-- One hour of one array over two grounds. -/
private theorem step {tb : Tables} {a : PvArr} {b : Fl} {e : Option Fl} {zen saz dni dhi : Fl} {am : Option Fl} {model : String} {p p' : Poa}
    {α β g t G : ℝ} (h : a.getIrradiance tb e zen saz dni (fin g) dhi none am (some (fin α)) model = .ok p)
    (h' : PvArr.getIrradiance tb { a with albedo := b } e zen saz dni (fin g) dhi none am (some (fin β)) model = .ok p')
    (ht : (a.mount.orientation zen saz).1 = fin t) (hG : p.poa_global = fin G) :
    p'.poa_global = fin (G + extra g (β - α) t) ∧ p'.poa_direct = p.poa_direct ∧ p'.poa_sky_diffuse = p.poa_sky_diffuse ∧
    (∃ γ, p.poa_ground_diffuse = fin γ ∧ p'.poa_ground_diffuse = fin (γ + extra g (β - α) t)) ∧
    ∃ D, p.poa_diffuse = fin D ∧ p'.poa_diffuse = fin (D + extra g (β - α) t) := by
  unfold PvArr.getIrradiance at h h'
  dsimp only [Option.getD_some] at h h'
  rw [ht] at h h'
  obtain ⟨q, γ, hq, h1, h2, h3, h4, h5, -⟩ := Overcast.albedo_step tb.perezTable tb.spline (b := β) h hG
  obtain rfl := Except.ok.inj (hq.symm.trans h')
  refine ⟨h3, h4, h5, ⟨γ, h1, h2⟩, ?_⟩
  obtain ⟨s1, s2⟩ := sums h
  obtain ⟨-, s2'⟩ := sums h'
  rw [s1] at hG
  obtain ⟨x, D, -, hD, -⟩ := add_eq_fin hG
  rw [s2] at hD
  obtain ⟨u, v, hu, hv, hD'⟩ := add_eq_fin hD
  rw [h1, fin_inj] at hv
  subst hv
  exact ⟨D, by rw [s2, hD], by rw [s2', h5, hu, h2, fin_add, fin_inj, hD']; unfold extra; ring⟩

/-- What two runs over different grounds share, array by array. -/
private theorem both {c c' : Chain} {s : Site} {x : Input} {r r' q q' : Results} (B : ButGround c c') (h : runModel c s x r = .ok q)
    (h' : runModel c' s x r' = .ok q') {k : ℕ} {a : PvArr} (ha : c.system.arrays[k]? = some a) :
    ∃ b, c'.system.arrays[k]? = some { a with albedo := b } ∧ ∃ sp am times f f', q.solar_position = some sp ∧ q.losses = some f ∧ q'.losses = some f' ∧
      ∃ w ti ti' aoi aoi' iam iam' sm sm' e e' t t' d d', frameFor x k = some w ∧ ArrayResults q k ti aoi iam sm e t d ∧
        ArrayResults q' k ti' aoi' iam' sm' e' t' d' ∧ PoaSpec c s sp am times (AllAlbedo x) a w ti ∧
        PoaSpec c s sp am times (AllAlbedo x) { a with albedo := b } w ti' ∧
        OpticsSpec c s sp am a w ti aoi iam sm e ∧ OpticsSpec c s sp am a w ti' aoi' iam' sm' e' ∧
        CellSpec c s times a w (colOr ti "poa_global" nan) e t ∧ CellSpec c s times a w (colOr ti' "poa_global" nan) e' t' ∧
        PowerSpec c s a e t f d ∧ PowerSpec c s a e' t' f' d' := by
  obtain ⟨b, hb⟩ := B.arrays k a ha
  obtain ⟨sp, am, times, f, s1, l1, P⟩ := run_model_array h
  obtain ⟨sp', am', times', f', s1', l1', P'⟩ := run_model_array h'
  obtain ⟨rfl, rfl, rfl⟩ := sky_same (by rw [B.rest]) (by rw [B.rest]) s1 s1'
  obtain ⟨w, ti, aoi, iam, sm, e, t, d, p1, p2, p3, p4, p5, p6⟩ := P k a ha
  obtain ⟨w', ti', aoi', iam', sm', e', t', d', p1', p2', p3', p4', p5', p6'⟩ := P' k _ hb
  obtain rfl := Option.some.inj (p1.symm.trans p1')
  refine ⟨b, hb, sp, am, times, f, f', s1.stored.1, l1, l1', w, ti, ti', aoi, aoi', iam, iam', sm, sm', e, e', t, t', d, d', p1, p2, p2', p3, ?_, p4, ?_,
    p5, ?_, p6, ?_⟩
  · rw [B.rest] at p3'; exact ⟨p3'.columns⟩
  · rw [B.rest] at p4'; exact ⟨p4'.angle, p4'.modifier, p4'.spectral, p4'.effective⟩
  · rw [B.rest] at p5'; exact p5'
  · rw [B.rest] at p6'; exact p6'

private theorem col {q : Results} {T : List ℝ} {p : ℕ → Poa} {k i : ℕ} {name : String} {S : Ser} (h1 : part k q.total_irrad = some (poaFrame T p))
    (h2 : (poaFrame T p).cols.get? name = some S) (v : Fl) : At q k name i v ↔ S i = v := by
  constructor
  · rintro ⟨ti, S', e1, e2, e3⟩
    obtain rfl := Option.some.inj (e1.symm.trans h1)
    obtain rfl := Option.some.inj (e2.symm.trans h2)
    exact e3
  · exact fun h => ⟨_, _, h1, h2, h⟩

private theorem cols {q : Results} {T : List ℝ} {p : ℕ → Poa} {k : ℕ} (h1 : part k q.total_irrad = some (poaFrame T p)) (i : ℕ) :
    (∀ v, At q k "poa_global" i v ↔ (p i).poa_global = v) ∧ (∀ v, At q k "poa_direct" i v ↔ (p i).poa_direct = v) ∧
    (∀ v, At q k "poa_diffuse" i v ↔ (p i).poa_diffuse = v) ∧ (∀ v, At q k "poa_sky_diffuse" i v ↔ (p i).poa_sky_diffuse = v) ∧
    ∀ v, At q k "poa_ground_diffuse" i v ↔ (p i).poa_ground_diffuse = v :=
  have c1 : (poaFrame T p).cols.get? "poa_global" = some fun i => (p i).poa_global := by simp [poaFrame, PyDict.get?]
  have c2 : (poaFrame T p).cols.get? "poa_direct" = some fun i => (p i).poa_direct := by simp [poaFrame, PyDict.get?]
  have c3 : (poaFrame T p).cols.get? "poa_diffuse" = some fun i => (p i).poa_diffuse := by simp [poaFrame, PyDict.get?]
  have c4 : (poaFrame T p).cols.get? "poa_sky_diffuse" = some fun i => (p i).poa_sky_diffuse := by simp [poaFrame, PyDict.get?]
  have c5 : (poaFrame T p).cols.get? "poa_ground_diffuse" = some fun i => (p i).poa_ground_diffuse := by simp [poaFrame, PyDict.get?]
  ⟨fun v => col h1 c1 v, fun v => col h1 c2 v, fun v => col h1 c3 v, fun v => col h1 c4 v, fun v => col h1 c5 v⟩

/-- **C241a.** Over brighter ground, with no albedo in the data, each array gets more light from the ground, by the rise in albedo times the
global irradiance times the part of the ground it sees; the same direct and sky light; and so that much more diffuse and global light. -/
theorem more_light {c c' : Chain} {s : Site} {x : Input} {r r' q q' : Results} (B : ButGround c c') (h : runModel c s x r = .ok q)
    (h' : runModel c' s x r' = .ok q') (hx : ¬ HasCols x ["albedo"]) {k i : ℕ} {α β g t G : ℝ} (H : Hour c c' x q k i α β g t)
    (hG : At q k "poa_global" i (fin G)) :
    At q' k "poa_global" i (fin (G + extra g (β - α) t)) ∧ (∀ v, At q k "poa_direct" i v → At q' k "poa_direct" i v) ∧
    (∀ v, At q k "poa_sky_diffuse" i v → At q' k "poa_sky_diffuse" i v) ∧
    (∃ γ, At q k "poa_ground_diffuse" i (fin γ) ∧ At q' k "poa_ground_diffuse" i (fin (γ + extra g (β - α) t))) ∧
    ∃ D, At q k "poa_diffuse" i (fin D) ∧ At q' k "poa_diffuse" i (fin (D + extra g (β - α) t)) := by
  obtain ⟨a, ha, hα⟩ := H.ground
  obtain ⟨b, hb, sp, am, times, f, f', hsp, -, -, w, ti, ti', aoi, aoi', iam, iam', sm, sm', e, e', T, T', d, d', p1, p2, p2', p3, p3', -⟩ := both B h h' ha
  obtain ⟨a', ha', hβ⟩ := H.ground'
  obtain rfl := Option.some.inj (hb.symm.trans ha')
  obtain ⟨w0, s0, hw, hs, hg⟩ := H.light
  obtain rfl := Option.some.inj (hw.symm.trans p1)
  obtain ⟨a0, sp0, ha0, hsp0, ht⟩ := H.tilt
  obtain rfl := Option.some.inj (ha0.symm.trans ha)
  obtain rfl := Option.some.inj (hsp0.symm.trans hsp)
  obtain ⟨dni, ghi, dhi, c1, c2, c3, p, rfl, hp⟩ := p3.columns
  obtain ⟨dni', ghi', dhi', c1', c2', c3', p', rfl, hp'⟩ := p3'.columns
  obtain rfl := Option.some.inj (c1.symm.trans c1')
  obtain rfl := Option.some.inj (c2.symm.trans c2')
  obtain rfl := Option.some.inj (c3.symm.trans c3')
  obtain rfl := Option.some.inj (hs.symm.trans c2)
  have k1 := hp i
  have k2 := hp' i
  have hx : ¬ AllAlbedo x := hx
  rw [if_neg hx] at k1 k2
  rw [hα, hg] at k1
  dsimp only at k2 hβ
  rw [hβ, hg] at k2
  obtain ⟨b1, b2, b3, b4, b5⟩ := cols p2.total_irrad i
  obtain ⟨b1', b2', b3', b4', b5'⟩ := cols p2'.total_irrad i
  obtain ⟨r1, r2, r3, ⟨γ, r4, r5⟩, D, r6, r7⟩ := step k1 k2 ht ((b1 _).mp hG)
  refine ⟨(b1' _).mpr r1, fun v hv => (b2' _).mpr (r2.trans ((b2 _).mp hv)),
    fun v hv => (b4' _).mpr (r3.trans ((b4 _).mp hv)),
    ⟨γ, (b5 _).mpr r4, (b5' _).mpr r5⟩, D, (b3 _).mpr r6, (b3' _).mpr r7⟩

/-- **C241b.** The angle of incidence and the two modifiers do not change; the effective irradiance rises by the additional light times the
spectral modifier times `FD`, the fraction of diffuse light the module uses (1 unless its parameters say otherwise). -/
theorem more_effective {c c' : Chain} {s : Site} {x : Input} {r r' q q' : Results} (B : ButGround c c') (h : runModel c s x r = .ok q)
    (h' : runModel c' s x r' = .ok q') (hx : ¬ HasCols x ["albedo"]) {k i : ℕ} {α β g t G σ e : ℝ} (H : Hour c c' x q k i α β g t)
    (hG : At q k "poa_global" i (fin G)) (hs : ∃ v, part k q.spectral_modifier = some v ∧ v i = fin σ)
    (he : ∃ v, part k q.effective_irradiance = some v ∧ v i = fin e) {a : PvArr} (ha : c.system.arrays[k]? = some a) {fd : ℝ}
    (hfd : (entry a.module_parameters "FD").getD 1 = fin fd) (hn : Numeric a.module_parameters "FD") :
    part k q'.aoi = part k q.aoi ∧ part k q'.aoi_modifier = part k q.aoi_modifier ∧ part k q'.spectral_modifier = part k q.spectral_modifier ∧
    ∃ v, part k q'.effective_irradiance = some v ∧ v i = fin (e + σ * (fd * extra g (β - α) t)) := by
  obtain ⟨m1, m2, -, -, D, m3, m4⟩ := more_light B h h' hx H hG
  obtain ⟨b, hb, sp, am, times, f, f', hsp, -, -, w, ti, ti', aoi, aoi', iam, iam', sm, sm', E, E', T, T', d, d', p1, p2, p2', p3, p3', p4, p4', -⟩ :=
    both B h h' ha
  obtain ⟨direct, diffuse, F, d1, d2, d3, d4⟩ := p4.effective
  obtain ⟨direct', diffuse', F', d1', d2', d3', d4'⟩ := p4'.effective
  obtain rfl := Except.ok.inj (d3.symm.trans d3')
  have hF : F = fin fd := by
    unfold fdOf at d3
    cases hv : a.module_parameters.get? "FD" with
    | none => rw [hv] at d3; simp only [entry, hv] at hfd; exact (Except.ok.inj d3).symm.trans hfd
    | some v =>
      obtain ⟨y, rfl⟩ := hn v hv
      rw [hv] at d3
      simp only [entry, hv] at hfd
      exact (Except.ok.inj d3).symm.trans hfd
  have a1 : aoi' = aoi := funext fun j => (p4'.angle j).trans (p4.angle j).symm
  subst a1
  have a2 : iam' = iam := by
    have u := p4.modifier
    have u' := p4'.modifier
    funext j
    split_ifs at u u' with hc
    · rw [u j, u' j]
    · exact Except.ok.inj ((u' j).symm.trans (u j))
  subst a2
  have a3 : sm' = sm := by
    have u := p4.spectral
    have u' := p4'.spectral
    funext j
    cases hc : c.spectral with
    | no_loss => simp only [hc] at u u'; rw [u j, u' j]
    | sapm => simp only [hc] at u u'; exact Except.ok.inj ((u' j).symm.trans (u j))
    | first_solar =>
      simp only [hc] at u u'
      obtain ⟨pw, v1, v2⟩ := u
      obtain ⟨pw', v1', v2'⟩ := u'
      obtain rfl := Option.some.inj (v1.symm.trans v1')
      exact Except.ok.inj ((v2' j).symm.trans (v2 j))
  subst a3
  refine ⟨by rw [p2'.aoi, p2.aoi], by rw [p2'.aoi_modifier, p2.aoi_modifier], by rw [p2'.spectral_modifier, p2.spectral_modifier], E',
    p2'.effective_irradiance, ?_⟩
  have eD : direct' i = direct i := by
    obtain ⟨u, v, u1, u2, u3⟩ := m2 (direct i) ⟨ti, direct, p2.total_irrad, d1, rfl⟩
    obtain rfl := Option.some.inj (u1.symm.trans p2'.total_irrad)
    obtain rfl := Option.some.inj (u2.symm.trans d1')
    exact u3
  have eF : diffuse i = fin D := by
    obtain ⟨u, v, u1, u2, u3⟩ := m3
    obtain rfl := Option.some.inj (u1.symm.trans p2.total_irrad)
    obtain rfl := Option.some.inj (u2.symm.trans d2)
    exact u3
  have eF' : diffuse' i = fin (D + extra g (β - α) t) := by
    obtain ⟨u, v, u1, u2, u3⟩ := m4
    obtain rfl := Option.some.inj (u1.symm.trans p2'.total_irrad)
    obtain rfl := Option.some.inj (u2.symm.trans d2')
    exact u3
  obtain ⟨v, hv, hσ⟩ := hs
  obtain rfl := Option.some.inj (hv.symm.trans p2.spectral_modifier)
  obtain ⟨v', hv', hE⟩ := he
  obtain rfl := Option.some.inj (hv'.symm.trans p2.effective_irradiance)
  have g1 := d4 i
  rw [hE, hσ, eF, hF, fin_mul] at g1
  obtain ⟨x1, x2, y1, y2, y3⟩ := mul_eq_fin g1.symm
  obtain rfl := Fl.fin.inj y1
  obtain ⟨z1, z2, w1, w2, w3⟩ := add_eq_fin y2
  obtain rfl := Fl.fin.inj w2
  rw [d4' i, hσ, eD, eF', hF, w1, fin_mul, fin_add, fin_mul, fin_inj, y3, w3]
  ring

/-- **C241c.** So with non-negative global irradiance, spectral modifier and `FD`, over brighter ground neither the global nor the effective
irradiance of an array is less. -/
theorem no_less {c c' : Chain} {s : Site} {x : Input} {r r' q q' : Results} (B : ButGround c c') (h : runModel c s x r = .ok q)
    (h' : runModel c' s x r' = .ok q') (hx : ¬ HasCols x ["albedo"]) {k i : ℕ} {α β g t G σ e : ℝ} (H : Hour c c' x q k i α β g t)
    (hG : At q k "poa_global" i (fin G)) (hs : ∃ v, part k q.spectral_modifier = some v ∧ v i = fin σ)
    (he : ∃ v, part k q.effective_irradiance = some v ∧ v i = fin e) {a : PvArr} (ha : c.system.arrays[k]? = some a) {fd : ℝ}
    (hfd : (entry a.module_parameters "FD").getD 1 = fin fd) (hn : Numeric a.module_parameters "FD") (hαβ : α ≤ β) (g0 : 0 ≤ g) (s0 : 0 ≤ σ)
    (f0 : 0 ≤ fd) : (∃ G', At q' k "poa_global" i (fin G') ∧ G ≤ G') ∧
      ∃ v e', part k q'.effective_irradiance = some v ∧ v i = fin e' ∧ e ≤ e' := by
  have x0 := extra_nonneg (t := t) g0 (sub_nonneg.mpr hαβ)
  obtain ⟨-, -, -, v, v1, v2⟩ := more_effective B h h' hx H hG hs he ha hfd hn
  exact ⟨⟨_, (more_light B h h' hx H hG).1, by linarith⟩, v, _, v1, v2, by nlinarith [mul_nonneg s0 (mul_nonneg f0 x0)]⟩

/-- **C241d.** If the data give the temperature of the cells, a PVWatts array has no less DC power over brighter ground. -/
theorem dc_no_less {c c' : Chain} {s : Site} {x : Input} {r r' q q' : Results} (B : ButGround c c') (h : runModel c s x r = .ok q)
    (h' : runModel c' s x r' = .ok q') (hx : ¬ HasCols x ["albedo"]) (hdc : c.dc = some .pvwatts) {k i : ℕ} {α β g t G σ e T : ℝ}
    (H : Hour c c' x q k i α β g t) (hG : At q k "poa_global" i (fin G)) (hs : ∃ v, part k q.spectral_modifier = some v ∧ v i = fin σ)
    (L : Light q k i e T) (hc : ∃ w v, frameFor x k = some w ∧ w.cols.get? "cell_temperature" = some v) {a : PvArr}
    (ha : c.system.arrays[k]? = some a) {fd : ℝ} (hfd : (entry a.module_parameters "FD").getD 1 = fin fd) (hn : Numeric a.module_parameters "FD")
    (hαβ : α ≤ β) (g0 : 0 ≤ g) (s0 : 0 ≤ σ) (f0 : 0 ≤ fd) {pdc0 γ tref n m f : ℝ} (W : Watts a pdc0 γ tref n m) (hf : q.losses = some (fin f))
    (l0 : 0 ≤ f) (p0 : 0 ≤ pdc0) (t0 : 0 ≤ 1 + γ * (T - tref)) (n0 : 0 ≤ n) (m0 : 0 ≤ m) :
    ∃ P P', Power q k i P ∧ Power q' k i P' ∧ P ≤ P' := by
  obtain ⟨E0, t0', l1, l2, l3, l4⟩ := L
  obtain ⟨-, v, e', v1, v2, le⟩ := no_less B h h' hx H hG hs ⟨E0, l1, l3⟩ ha hfd hn hαβ g0 s0 f0
  obtain ⟨b, hb, sp, am, times, F, F', hsp, hF, hF', w, ti, ti', aoi, aoi', iam, iam', sm, sm', E, E', C, C', d, d', p1, p2, p2', -, -, -, -, p5, p5', p6, p6'⟩ :=
    both B h h' ha
  obtain ⟨w', tc, c1, c2⟩ := hc
  obtain rfl := Option.some.inj (c1.symm.trans p1)
  have hC : C' = C := by
    unfold CellSpec at p5 p5'
    simp only [c2] at p5 p5'
    rw [p5, p5']
  subst hC
  obtain rfl := Option.some.inj (l2.symm.trans p2.cell_temperature)
  have L' : Light q' k i e' T := ⟨v, _, v1, p2'.cell_temperature, v2, l4⟩
  have hf' : q'.losses = some (fin f) := by
    rw [hF'] ; rw [hF] at hf
    obtain rfl := Option.some.inj hf
    obtain ⟨_, _, -, -, h3⟩ := p6
    obtain ⟨_, _, -, -, h3'⟩ := p6'
    unfold LossSpec at h3 h3'
    cases hl : c.losses with
    | no_loss => simp only [hl] at h3 h3'; rw [h3.2, h3'.2]
    | pvwatts =>
      simp only [hl] at h3 h3'
      obtain ⟨l, e1, e2, -⟩ := h3
      obtain ⟨l', e1', e2', -⟩ := h3'
      rw [e1] at e1'
      rw [e2, e2', Except.ok.inj e1']
  refine ⟨_, _, dc_value (.inl h) hdc ha W ⟨E0, _, l1, l2, l3, l4⟩ hf, dc_value (.inl h') (by rw [B.rest]; exact hdc) hb
    ⟨W.rating, W.coefficient, W.numbers, W.reference, W.unadjusted, W.series, W.strings⟩ L' hf', ?_⟩
  gcongr

/-- **C241e.** If every frame of the data has an albedo column, the arrays' own albedo does not matter to any result. -/
theorem column_wins {c c' : Chain} {s : Site} {x : Input} {r r' q q' : Results} (B : ButGround c c') (h : runModel c s x r = .ok q)
    (h' : runModel c' s x r' = .ok q') (hx : HasCols x ["albedo"]) {k : ℕ} (hk : k < c.system.arrays.length) :
    (∃ ti ti', part k q.total_irrad = some ti ∧ part k q'.total_irrad = some ti' ∧ ∀ n, ti.cols.get? n = ti'.cols.get? n) ∧
    part k q.effective_irradiance = part k q'.effective_irradiance ∧ part k q.cell_temperature = part k q'.cell_temperature ∧
    ∃ d d', part k q.dc = some d ∧ part k q'.dc = some d' ∧ DcEq d d' := by
  have ha := List.getElem?_eq_getElem hk
  obtain ⟨b, hb, sp, am, times, F, F', hsp, hF, hF', w, ti, ti', aoi, aoi', iam, iam', sm, sm', E, E', C, C', d, d', p1, p2, p2', p3, p3', p4, p4', p5, p5', p6, p6'⟩ :=
    both B h h' ha
  obtain ⟨dni, ghi, dhi, c1, c2, c3, p, rfl, hp⟩ := p3.columns
  obtain ⟨dni', ghi', dhi', c1', c2', c3', p', rfl, hp'⟩ := p3'.columns
  obtain rfl := Option.some.inj (c1.symm.trans c1')
  obtain rfl := Option.some.inj (c2.symm.trans c2')
  obtain rfl := Option.some.inj (c3.symm.trans c3')
  have hx : AllAlbedo x := hx
  have hpp : p' = p := by
    funext j
    have k1 := hp j
    have k2 := hp' j
    rw [if_pos hx] at k1 k2
    have hal : ∀ y z : Fl, colOr w "albedo" y = colOr w "albedo" z := by
      intro y z
      have : w ∈ frames x := frame_mem p1
      have := hx w this "albedo" (by simp)
      unfold colOr
      cases hv : w.cols.get? "albedo" with
      | none => simp [hv] at this
      | some v => rfl
    dsimp only at k2
    rw [hal _ (c.system.arrays[k]'hk).albedo] at k2
    exact Except.ok.inj (k2.symm.trans k1)
  subst hpp
  obtain ⟨rfl, rfl, rfl, rfl⟩ := optics_fun (models_refl c) (sw_refl w) rfl rfl p4 p4'
  obtain rfl := cell_fun (models_refl c) (sw_refl w) p5 p5'
  exact ⟨⟨_, _, p2.total_irrad, p2'.total_irrad, fun _ => rfl⟩, by rw [p2.effective_irradiance, p2'.effective_irradiance],
    by rw [p2.cell_temperature, p2'.cell_temperature], d, d', p2.dc, p2'.dc, power_fun (models_refl c) p6 p6'⟩

/-! ### Example: the same module over soil and over snow -/

open Pvlib.Props.ChainTotal Pvlib.Props.ChainWitness Pvlib.Props.ChainConfig

/-- The example system, its module over ground that reflects `b`. -/
def yard (b : ℝ) : System := ⟨[{ exArray with albedo := fin b }], [("pdc0", .num 80)], []⟩

private theorem yard_data (b : ℝ) : PvwattsData (yard b) := by
  refine ⟨by simp [yard], ?_, by simp [yard, PyDict.get?], ?_, ?_⟩
  · intro a ha k
    simp only [yard, List.mem_singleton] at ha
    subst ha
    exact exNumeric exArray (by simp [exSystem]) k
  · intro k v hv
    simp only [yard, PyDict.get?] at hv
    split_ifs at hv
    all_goals simp at hv
    all_goals exact ⟨_, hv.symm⟩
  · intro k v hv
    simp [yard, PyDict.get?] at hv

/-- An hour of weather that comes with the temperature of the cells. -/
def winter : DF := ⟨[12], [("ghi", fun _ => fin 600), ("dni", fun _ => fin 700), ("dhi", fun _ => fin 100), ("cell_temperature", fun _ => fin 10)]⟩

/-- The sun in the south. -/
def southern (n : Numerics) (t : Irradiance.PerezTable) : Site :=
  { exSite n t with solarPosition := fun _ _ _ _ => .ok ⟨fun _ => fin 60, fun _ => fin 60, fun _ => fin 180⟩ }

private def plainChain (c : Chain) : Chain := { c with aoi := .no_loss, transposition_model := "isotropic" }

private theorem yard_run (b : ℝ) (n : Numerics) (t : Irradiance.PerezTable) (r : Results) : ∃ c q, withPvwatts (yard b) {} = .ok c ∧
    runModel (plainChain c) (southern n t) (.frame winter) r = .ok q := by
  have hc : ∃ c, withPvwatts (yard b) {} = .ok c :=
    ⟨_, (pvwatts_preset (yard b) _).mpr ⟨by simp [HasAll, yard, exModule, PyDict.get?], by simp [HasAll, yard, exTemp, PyDict.get?], rfl⟩⟩
  obtain ⟨c, hc⟩ := hc
  have E := ((pvwatts_preset (yard b) c).mp hc).2.2
  have A := pvwatts_able (yard_data b) hc (southern n t)
  have O := pvwatts_optics (s := southern n t) (x := .frame winter) (yard_data b) hc fun _ _ _ => ⟨_, rfl⟩
  obtain ⟨q, h⟩ := run_model_total (c := plainChain c) (s := southern n t) (x := .frame winter) ⟨A.temp, A.delta, A.dc, A.ohmic, A.losses, A.ac⟩
    ⟨O.sun, O.airmass, .inl rfl, O.spectral, O.fd⟩ (by
      intro a ha e z az dni ghi dhi am al
      have e : pyLower "isotropic" = "isotropic" := by decide +kernel
      simp [PvArr.getIrradiance, Irradiance.getTotalIrradiance, Irradiance.getSkyDiffuse, e, Irradiance.groundDiffuse, bind, Except.bind, plainChain,
        pure, Except.pure])
    (by simp only [plainChain, E]; simp [yard]) (.inl trivial) (by
      intro d hd k hk
      simp only [frames, List.mem_cons, List.not_mem_nil, or_false] at hd
      subst hd
      simp only [List.mem_cons, List.not_mem_nil, or_false] at hk
      rcases hk with rfl | rfl | rfl <;> simp [winter, PyDict.get?]) r
  exact ⟨c, q, hc, h⟩

example (n : Numerics) (t : Irradiance.PerezTable) (r : Results) : ∃ c c' q q' P P', c.system = yard 0.2 ∧ c'.system = yard 0.8 ∧
    runModel c (southern n t) (.frame winter) r = .ok q ∧ runModel c' (southern n t) (.frame winter) r = .ok q' ∧
    Power q 0 0 P ∧ Power q' 0 0 P' ∧ P ≤ P' := by
  obtain ⟨c, q, hc, h⟩ := yard_run 0.2 n t r
  obtain ⟨c', q', hc', h'⟩ := yard_run 0.8 n t r
  have E := ((pvwatts_preset _ c).mp hc).2.2
  have E' := ((pvwatts_preset _ c').mp hc').2.2
  have hs : (plainChain c).system = yard 0.2 := by rw [E]; rfl
  have hs' : (plainChain c').system = yard 0.8 := by rw [E']; rfl
  have B : ButGround (plainChain c) (plainChain c') := by
    refine ⟨by rw [E, E']; rfl, ?_⟩
    rw [hs, hs']
    rintro (_ | k) a ha
    · obtain rfl := Option.some.inj ha
      exact ⟨fin 0.8, rfl⟩
    · simp [yard] at ha
  have a0 : (plainChain c).system.arrays[0]? = some { exArray with albedo := fin 0.2 } := by rw [hs]; rfl
  have a0' : (plainChain c').system.arrays[0]? = some { exArray with albedo := fin 0.8 } := by rw [hs']; rfl
  obtain ⟨b, hb, sp, am, times, f, f', hsp, hf, hf', w, ti, ti', aoi, aoi', iam, iam', sm, sm', e, e', T, T', d, d', p1, p2, p2', p3, p3', p4, p4', p5, p5', p6, p6'⟩ :=
    both B h h' a0
  obtain rfl : winter = w := by simpa [frameFor] using p1
  have hpos : sp = ⟨fun _ => fin 60, fun _ => fin 60, fun _ => fin 180⟩ := by
    obtain ⟨sp', _, _, _, s1, -⟩ := run_model_array h
    obtain ⟨_, -, z⟩ := s1.position
    exact (Option.some.inj (hsp.symm.trans s1.stored.1)).trans (Except.ok.inj z).symm
  subst hpos
  obtain ⟨dni, ghi, dhi, c1, c2, c3, p, rfl, hp⟩ := p3.columns
  obtain rfl : dni = fun _ => fin 700 := by simpa [winter, PyDict.get?] using c1.symm
  obtain rfl : ghi = fun _ => fin 600 := by simpa [winter, PyDict.get?] using c2.symm
  obtain rfl : dhi = fun _ => fin 100 := by simpa [winter, PyDict.get?] using c3.symm
  have hx : ¬ HasCols (.frame winter) ["albedo"] := by
    intro g
    have := g winter (by simp [frames]) "albedo" (by simp)
    simp [winter, PyDict.get?] at this
  have hv : ∃ D F, (p 0).poa_direct = fin D ∧ (p 0).poa_diffuse = fin F ∧ (p 0).poa_global = fin (D + F) := by
    have g := hp 0
    have hx' : ¬ AllAlbedo (.frame winter) := hx
    rw [if_neg hx'] at g
    unfold PvArr.getIrradiance at g
    have o : ({ exArray with albedo := fin 0.2 } : PvArr).mount.orientation (fin 60) (fin 180) = (fin 30, fin 180) := by
      simp [exArray, mkArray, Mount.orientation]
    dsimp only [Option.getD_some] at g o
    rw [o] at g
    have he : (southern n t).extra times 0 = fin 1366 := by simp [southern, exSite]
    have hm : (plainChain c).transposition_model = "isotropic" := rfl
    rw [he, hm] at g
    obtain ⟨P, _, G, _, g1, -, g2, -⟩ := SkyModels.global_follows (SkyModels.isotropic_sky ⟨30, 180, 60, 180, 700, 600, 100, 1366⟩)
      (SkyModels.isotropic_sky ⟨30, 180, 60, 180, 700, 600, 100, 1366⟩) (southern n t).tb.perezTable (southern n t).tb.spline
      (some (am.relative 0)) "allsitescomposite1990" 0.2
    obtain rfl := Except.ok.inj (g1.symm.trans g)
    have g3 := (sums g1).1
    rw [g2] at g3
    obtain ⟨D, F, d1, d2, d3⟩ := add_eq_fin g3.symm
    exact ⟨D, F, d1, d2, by rw [g2, d3]⟩
  obtain ⟨D, F, d1, d2, d3⟩ := hv
  have e3 : sm 0 = 1 := by
    have := p4.spectral
    have hsp : (plainChain c).spectral = .no_loss := by rw [E]; rfl
    simp only [hsp] at this
    exact this 0
  have e2 : iam 0 = 1 := by
    have := p4.modifier
    rw [if_pos (show (plainChain c).aoi = .no_loss from rfl)] at this
    exact this 0
  obtain ⟨v, u, fd, x1, x2, x3, x4⟩ := p4.effective
  obtain rfl : v = fun i => (p i).poa_direct := by simpa [poaFrame, PyDict.get?] using x1.symm
  obtain rfl : u = fun i => (p i).poa_diffuse := by simpa [poaFrame, PyDict.get?] using x2.symm
  obtain rfl : fd = 1 := by simpa [fdOf, exModule, PyDict.get?] using x3.symm
  have e4 : e 0 = fin (1 * (D * 1 + 1 * F)) := by
    rw [x4 0, e2, e3]
    dsimp only
    rw [d1, d2]
    simp only [one_eq, fin_mul, fin_add]
  have e5 : T = fun _ => fin 10 := by simpa [CellSpec, winter, PyDict.get?] using p5
  have W : Watts { exArray with albedo := fin 0.2 } 100 (-0.003) 25 1 1 := by
    refine ⟨?_, ?_, ?_, ?_, ?_, rfl, rfl⟩
    · simp [exModule, entry, PyDict.get?]
    · simp [exModule, entry, PyDict.get?]
    · intro k _
      exact (exNumeric exArray (by simp [exSystem]) k).1
    · simp [exModule, entry, PyDict.get?]
    · simp [exModule, PyDict.get?]
  obtain ⟨lf, l1, l2⟩ : ∃ lf : ℝ, q.losses = some (fin lf) ∧ 0 ≤ lf := by
    have P : Percent (plainChain c) usual := by
      refine usual_percent (by rw [E]; rfl) ?_
      rw [hs]; rfl
    exact ⟨_, (factor (.inl h) (by rw [hs]; simp [yard])).1 _ P, (left_le_one usual_bounds).1⟩
  have n0 : entry exArray.module_parameters "FD" = none := by simp [exModule, entry, PyDict.get?]
  obtain ⟨P, P', h1, h2, h3⟩ := dc_no_less B h h' hx (by rw [E]; rfl) (k := 0) (i := 0) (α := 0.2) (β := 0.8) (g := 600) (t := 30) (G := D + F) (σ := 1)
    (e := 1 * (D * 1 + 1 * F)) (T := 10)
    ⟨⟨_, a0, rfl⟩, ⟨_, a0', rfl⟩, ⟨winter, fun _ => fin 600, rfl, by simp [winter, PyDict.get?], rfl⟩, ⟨_, _, a0, hsp, by simp [exArray, mkArray, Mount.orientation]⟩⟩
    ((cols p2.total_irrad 0).1 _ |>.mpr d3) ⟨_, p2.spectral_modifier, by rw [e3, one_eq]⟩
    ⟨_, _, p2.effective_irradiance, p2.cell_temperature, e4, by rw [e5]⟩ ⟨winter, fun _ => fin 10, rfl, by simp [winter, PyDict.get?]⟩ a0 (fd := 1)
    (by dsimp only; rw [n0, Option.getD_none, one_eq]) ((exNumeric exArray (by simp [exSystem]) "FD").1) (by norm_num) (by norm_num) (by norm_num) (by norm_num) W l1 l2
    (by norm_num) (by norm_num) (by norm_num) (by norm_num)
  exact ⟨plainChain c, plainChain c', q, q', P, P', hs, hs', h, h', h1, h2, h3⟩

end Pvlib.Props.ChainGround
