import Verif.Props.ChainLosses
import Verif.Props.SapmLight
import Verif.Props.InverterMono

/-! # Property C238: the wires of a chain -/

noncomputable section
open scoped Classical
namespace Pvlib.Props.ChainWires
open Fl Pvlib.Tools Pvlib.PvFunctions Pvlib.PvSystem Pvlib.ModelChain Pvlib.Props.PvSystem Pvlib.Props.ChainRun
  Pvlib.Props.ChainArrays Pvlib.Props.ArrayClass Pvlib.Props.ChainFacts Pvlib.Props.ChainTare Pvlib.Props.ChainMono Pvlib.Props.ChainWarm
  Pvlib.Props.ChainLosses

/-! ### Specification -/

/-- Chains with the same arrays and models, but another model of ohmic losses and other loss parameters of the arrays. -/
def ButWires (c c' : Chain) : Prop :=
  ∃ lost : ℕ → PyDict PVal, c' = { c with ohmic := c'.ohmic, system := { c.system with arrays := c'.system.arrays } } ∧
    ∀ k, c'.system.arrays[k]? = (c.system.arrays[k]?).map fun (a : PvArr) => { a with array_losses_parameters := lost k }

/-- The names under which module parameters give voltage and current of the maximum power point; the first pair present counts. -/
def Rated (a : PvArr) (v i : ℝ) : Prop :=
  ∃ names : String × String, (names = ("V_mp_ref", "I_mp_ref") ∨
        (names = ("Vmpo", "Impo") ∧ ¬ HasMp a.module_parameters ("V_mp_ref", "I_mp_ref")) ∨
        (names = ("Vmpp", "Impp") ∧ ¬ HasMp a.module_parameters ("V_mp_ref", "I_mp_ref") ∧
          ¬ HasMp a.module_parameters ("Vmpo", "Impo"))) ∧
    entry a.module_parameters names.1 = some (fin v) ∧ entry a.module_parameters names.2 = some (fin i)

/-- Array `a` of a chain: `n` modules in series, `m` strings, of the rated voltage and current, and wires that lose `percent` at the rated point; a chain without a
model of ohmic losses loses nothing. -/
structure Wires (c : Chain) (a : PvArr) (v i n m percent : ℝ) : Prop where
  rated : Rated a v i
  series : a.modules_per_string = fin n
  strings : a.strings = fin m
  percent : (c.ohmic = .no_loss ∧ percent = 0) ∨
    (c.ohmic = .dc_ohms_from_percent ∧ entry a.array_losses_parameters "dc_ohmic_percent" = some (fin percent))

/-- The power lost in the wires at current `I`: the resistance is `percent` of the array's rated voltage over rated current. -/
def lost (v i n m percent I : ℝ) : ℝ := percent / 100 * ((n * v) / (m * i)) * I ^ 2

/-! ### Wires -/

/-- **C238**: at the rated current the wires lose their percentage of the rated power; at any other current `percent` of the power at the rated voltage,
times current over rated current. -/
theorem lost_rated (v i n m percent : ℝ) : (m * i ≠ 0 → lost v i n m percent (m * i) = percent / 100 * (n * v * (m * i))) ∧
    ∀ I, lost v i n m percent I = percent / 100 * (n * v * I) * (I / (m * i)) := by
  unfold lost
  constructor
  · intro h
    field_simp
  · intro I
    field_simp

/-- **C238**: more percent, more current: more is lost. -/
theorem lost_mono {v i n m p p' I I' : ℝ} (hv : 0 ≤ v) (hi : 0 ≤ i) (hn : 0 ≤ n) (hm : 0 ≤ m) (h0 : 0 ≤ p) (hp : p ≤ p') (hI : |I| ≤ |I'|) :
    0 ≤ lost v i n m p I ∧ lost v i n m p I ≤ lost v i n m p' I' := by
  have := sq_le_sq.mpr hI
  have := h0.trans hp
  unfold lost
  exact ⟨by positivity, by gcongr⟩

private theorem ohms {c : Chain} {a : PvArr} {v i n m p : ℝ} (W : Wires c a v i n m p) (h : c.ohmic = .dc_ohms_from_percent) (hi : m * i ≠ 0) :
    a.dcOhms = .ok (fin (p / 100 * ((n * v) / (m * i)))) := by
  obtain ⟨names, h1, h2, h3⟩ := W.rated
  have hp := W.percent.resolve_left fun k => by rw [h] at k; exact absurd k.1 (by decide)
  rw [((dcOhms_choice a).1 names _ _ _ h1 h2 h3).1 hp.2, W.series, W.strings]
  simp only [dcOhmsFromPercent, ofNat_eq, fin_mul]
  rw [fin_div (by norm_num), fin_div hi, fin_mul]

private theorem map_some {α β : Type} {o : Option α} {g : α → β} {b : β} (h : o.map g = some b) : ∃ a, o = some a ∧ g a = b := by
  cases o with
  | none => simp at h
  | some a => exact ⟨a, rfl, by simpa using h⟩

/-- What the wires leave of the DC output `d0` of an array: all columns but the power, and the power less what is lost. -/
private theorem wired {c : Chain} {a : PvArr} {v i n m p : ℝ} (W : Wires c a v i n m p) (hi : m * i ≠ 0) {d0 d1 : Dc} (h : OhmicSpec c a d0 d1) :
    (∀ name, name ≠ "p_mp" → value d1 name = value d0 name) ∧ (value d0 "p_mp" = none → value d1 "p_mp" = none) ∧
      ∀ (cur pow : Ser), value d0 "i_mp" = some cur → value d0 "p_mp" = some pow → ∃ left, value d1 "p_mp" = some left ∧
        ∀ j I, cur j = fin I → left j = pow j - fin (lost v i n m p I) := by
  unfold OhmicSpec at h
  cases ho : c.ohmic with
  | no_loss =>
    simp only [ho] at h
    subst h
    refine ⟨fun _ _ => rfl, id, fun cur pow e1 e2 => ⟨pow, e2, fun j I e3 => ?_⟩⟩
    have hp := W.percent.resolve_right fun k => by rw [ho] at k; exact absurd k.1 (by decide)
    rw [hp.2, lost]
    cases pow j <;> simp
  | dc_ohms_from_percent =>
    simp only [ho] at h
    obtain ⟨f, f', cur, pow, r, rfl, rfl, h1, h2, h3, h4, h5⟩ := h
    rw [ohms W ho hi] at h1
    obtain rfl := Except.ok.inj h1
    refine ⟨fun name hn => h5 name hn, fun k => by simp [value, h3] at k, fun cur' pow' e1 e2 => ⟨_, h4, fun j I e3 => ?_⟩⟩
    obtain rfl : cur = cur' := by simpa [value, h2] using e1
    obtain rfl : pow = pow' := by simpa [value, h3] using e2
    simp only [e3, fin_mul, lost]
    congr 2
    ring

/-- **C238a.** Two runs from the same data of chains that differ in their wires only, whatever the models: array by array they have the same effective irradiance and cell
temperature, every column of the DC results but the power is the same, and the powers are what the modules deliver less what the wires lose, times the factor of the
system losses. -/
theorem same_but_wires {n : Entry} {c c' : Chain} {s : Site} {x : Input} {r r' q q' : Results} (B : ButWires c c') (h : n.run c s x r = .ok q)
    (h' : n.run c' s x r' = .ok q') : ∃ f, (c.system.arrays ≠ [] → q.losses = some f ∧ q'.losses = some f) ∧ ∀ k a, c.system.arrays[k]? = some a →
      part k q.effective_irradiance = part k q'.effective_irradiance ∧ part k q.cell_temperature = part k q'.cell_temperature ∧
      ∃ d d' a', c'.system.arrays[k]? = some a' ∧ part k q.dc = some d ∧ part k q'.dc = some d' ∧ (∀ name, name ≠ "p_mp" → value d name = value d' name) ∧
        ∀ v i n m p p', Wires c a v i n m p → Wires c' a' v i n m p' → m * i ≠ 0 → ∃ modules : String → Option Ser,
          (∀ name, name ≠ "p_mp" → value d name = (modules name).map fun y j => y j * f) ∧
          (modules "p_mp" = none → value d "p_mp" = none) ∧
          ∀ (cur pow : Ser), modules "i_mp" = some cur → modules "p_mp" = some pow → ∃ y y', value d "p_mp" = some y ∧ value d' "p_mp" = some y' ∧
            ∀ j I, cur j = fin I → y j = (pow j - fin (lost v i n m p I)) * f ∧ y' j = (pow j - fin (lost v i n m p' I)) * f := by
  obtain ⟨g, B1, B2⟩ := B
  have m1 : c'.solar_position_method = c.solar_position_method := by rw [B1]
  have m2 : c'.airmass_model = c.airmass_model := by rw [B1]
  have m3 : c'.losses = c.losses := by rw [B1]
  have m4 : c'.system.pvwattsLosses = c.system.pvwattsLosses := by rw [B1]; rfl
  have m5 : c'.dc = c.dc := by rw [B1]
  have hal : ∀ (k : ℕ) a, c.system.arrays[k]? = some a → ∃ a', c'.system.arrays[k]? = some a' ∧ Alike c c' s a a' := by
    intro k a ha
    refine ⟨{ a with array_losses_parameters := g k }, by rw [B2, ha]; rfl, ?_, ?_, ?_⟩
    · intro times w poa e t h
      rw [B1] at h
      exact h
    · intro sp am w ti aoi iam sm e h
      rw [B1] at h
      exact ⟨h.angle, h.modifier, h.spectral, h.effective⟩
    · intro sp am times A w ti h
      rw [B1] at h
      exact ⟨h.columns⟩
  obtain ⟨f, f', hf, hf', P⟩ := before_of m1 m2 hal h h'
  have loss' : ∀ {d0 d1 : Dc} {φ : Fl}, LossSpec c' d0 d1 φ → LossSpec c d0 d1 φ := by
    intro d0 d1 φ h
    unfold LossSpec at h ⊢
    rw [m3, m4] at h
    exact h
  have feq : c.system.arrays ≠ [] → f = f' := by
    intro hn
    obtain ⟨a', ha', e, t, d, d', e1, e2, t1, t2, d1, d2, ⟨u, w, h1, h2, h3⟩, ⟨u', w', g1, g2, g3⟩⟩ :=
      P 0 _ (List.getElem?_eq_getElem (List.length_pos_iff.mpr hn))
    have g3 := loss' g3
    unfold LossSpec at h3 g3
    cases hl : c.losses with
    | no_loss => simp only [hl] at h3 g3; rw [h3.2, g3.2]
    | pvwatts =>
      simp only [hl] at h3 g3
      obtain ⟨l, k1, k2, -⟩ := h3
      obtain ⟨l', k1', k2', -⟩ := g3
      rw [k1] at k1'
      rw [k2, k2', Except.ok.inj k1']
  refine ⟨f, fun hn => ⟨hf, by rw [hf', feq hn]⟩, fun k a ha => ?_⟩
  have hn : c.system.arrays ≠ [] := by rintro k; rw [k] at ha; simp at ha
  obtain rfl := feq hn
  obtain ⟨a', ha', e, t, d, d', e1, e2, t1, t2, d1, d2, ⟨u, w, h1, h2, h3⟩, ⟨u', w', g1, g2, g3⟩⟩ := P k a ha
  obtain rfl : a' = { a with array_losses_parameters := g k } := by
    rw [B2, ha] at ha'
    exact (Option.some.inj ha').symm
  have g1' : DcSpec c s a e t u' := by
    rw [B1] at g1
    exact g1
  have eq := dc_fun (models_refl c) h1 g1'
  have g3' := loss' g3
  have all : ∀ name, name ≠ "p_mp" → value w name = value u name ∧ value w' name = value u name := by
    intro name hn
    have one : ∀ {c : Chain} {a : PvArr} {d0 d1 : Dc}, OhmicSpec c a d0 d1 → value d1 name = value d0 name := by
      intro c a d0 d1 h
      unfold OhmicSpec at h
      cases ho : c.ohmic with
      | no_loss => simp only [ho] at h; rw [h]
      | dc_ohms_from_percent =>
        simp only [ho] at h
        obtain ⟨f, f', cur, pow, r, rfl, rfl, h1, h2, h3, h4, h5⟩ := h
        exact h5 name hn
    exact ⟨one h2, (one g2).trans (value_eq eq name).symm⟩
  refine ⟨e1.trans e2.symm, t1.trans t2.symm, d, d', _, ha', d1, d2, fun name hn => ?_, fun v i n m p p' W W' hi => ?_⟩
  · rw [after h3 name, after g3' name, (all name hn).1, (all name hn).2]
  · obtain ⟨x1, x0, x2⟩ := wired W hi h2
    obtain ⟨y1, y0, y2⟩ := wired W' hi g2
    refine ⟨value u, fun name hn => by rw [after h3 name, x1 name hn], fun k => by rw [after h3 "p_mp", x0 k]; rfl, fun cur pow k1 k2 => ?_⟩
    obtain ⟨l, z1, z2⟩ := x2 cur pow k1 k2
    obtain ⟨l', z1', z2'⟩ := y2 cur pow (by rw [← value_eq eq]; exact k1) (by rw [← value_eq eq]; exact k2)
    exact ⟨_, _, by rw [after h3 "p_mp", z1]; rfl, by rw [after g3' "p_mp", z1']; rfl, fun j I k3 => ⟨congrArg (· * f) (z2 j I k3), congrArg (· * f) (z2' j I k3)⟩⟩

/-- Column `name` of the DC results of array `k` at time `j`. -/
def Reads (q : Results) (k : ℕ) (name : String) (j : ℕ) (y : ℝ) : Prop := ∃ d v, part k q.dc = some d ∧ value d name = some v ∧ v j = fin y

/-- **C238b.** Of two runs from the same data of chains that differ in their wires only, the one whose wires lose a larger percentage reports the same current and
voltage, and less power by the difference of what the wires lose (at the reported current, before the system losses, which leave the part `F` of everything). -/
theorem wires_less {n : Entry} {c c' : Chain} {s : Site} {x : Input} {r r' q q' : Results} (B : ButWires c c') (h : n.run c s x r = .ok q)
    (h' : n.run c' s x r' = .ok q') {k : ℕ} {a a' : PvArr} (ha : c.system.arrays[k]? = some a) (ha' : c'.system.arrays[k]? = some a') {v i S M p p' F : ℝ}
    (W : Wires c a v i S M p) (W' : Wires c' a' v i S M p') (hi : M * i ≠ 0) (hf : q.losses = some (fin F)) (F0 : F ≠ 0) {j : ℕ} {I P : ℝ}
    (hI : Reads q k "i_mp" j I) (hP : Reads q k "p_mp" j P) :
    (∀ name, name ≠ "p_mp" → ∀ y, Reads q k name j y ↔ Reads q' k name j y) ∧ Reads q' k "p_mp" j (P - (lost v i S M p' (I / F) - lost v i S M p (I / F)) * F) := by
  obtain ⟨f, e0, e⟩ := same_but_wires B h h'
  have hn : c.system.arrays ≠ [] := by rintro k; rw [k] at ha; simp at ha
  obtain rfl : fin F = f := Option.some.inj (hf.symm.trans (e0 hn).1)
  obtain ⟨-, -, d, d', a1, b1, d1, d2, same, e⟩ := e k a ha
  rw [ha'] at b1
  obtain rfl := Option.some.inj b1
  obtain ⟨modules, m1, m0, m2⟩ := e v i S M p p' W W' hi
  obtain ⟨D, C, x1, x2, x3⟩ := hI
  obtain rfl := Option.some.inj (x1.symm.trans d1)
  obtain ⟨D', Y, y1, y2, y3⟩ := hP
  obtain rfl := Option.some.inj (y1.symm.trans d1)
  refine ⟨fun name hne y => ?_, ?_⟩
  · constructor
    · rintro ⟨D, u, z1, z2, z3⟩
      obtain rfl := Option.some.inj (z1.symm.trans d1)
      exact ⟨d', u, d2, by rw [← same name hne]; exact z2, z3⟩
    · rintro ⟨D, u, z1, z2, z3⟩
      obtain rfl := Option.some.inj (z1.symm.trans d2)
      exact ⟨_, u, d1, by rw [same name hne]; exact z2, z3⟩
  · rw [m1 "i_mp" (by decide)] at x2
    obtain ⟨cur, c1, rfl⟩ := map_some x2
    cases hp : modules "p_mp" with
    | none => rw [m0 hp] at y2; exact absurd y2 (by simp)
    | some pow =>
      obtain ⟨y, y', u1, u2, u3⟩ := m2 cur pow c1 hp
      obtain rfl : Y = y := Option.some.inj (y2.symm.trans u1)
      obtain ⟨I0, F', k1, k2, k3⟩ := mul_eq_fin x3
      obtain rfl := Fl.fin.inj k2
      obtain ⟨w1, w2⟩ := u3 j I0 k1
      rw [w1] at y3
      obtain ⟨P0, F', l1, l2, l3⟩ := mul_eq_fin y3
      obtain rfl := Fl.fin.inj l2
      have hI0 : I / F = I0 := by rw [k3]; field_simp
      refine ⟨d', y', d2, u2, ?_⟩
      have hpow : pow j = fin (P0 + lost v i S M p I0) := by
        cases hpj : pow j with
        | fin t =>
          rw [hpj, fin_sub] at l1
          have := Fl.fin.inj l1
          rw [← this]
          congr 1
          ring
        | _ => rw [hpj] at l1; simp at l1
      rw [w2, hpow, hI0]
      simp only [fin_sub, fin_mul, l3]
      congr 1
      ring

/-- **C238b**: so a larger percentage never gives more power. -/
theorem no_more {n : Entry} {c c' : Chain} {s : Site} {x : Input} {r r' q q' : Results} (B : ButWires c c') (h : n.run c s x r = .ok q)
    (h' : n.run c' s x r' = .ok q') {k : ℕ} {a a' : PvArr} (ha : c.system.arrays[k]? = some a) (ha' : c'.system.arrays[k]? = some a') {v i S M p p' F : ℝ}
    (W : Wires c a v i S M p) (W' : Wires c' a' v i S M p') (hv : 0 ≤ v) (hi : 0 < i) (hS : 0 ≤ S) (hM : 0 < M) (h0 : 0 ≤ p) (le : p ≤ p')
    (hf : q.losses = some (fin F)) (F0 : 0 < F) {j : ℕ} {I P : ℝ} (hI : Reads q k "i_mp" j I) (hP : Reads q k "p_mp" j P) :
    ∃ P', Reads q' k "p_mp" j P' ∧ P' ≤ P := by
  refine ⟨_, (wires_less B h h' ha ha' W W' (mul_pos hM hi).ne' hf F0.ne' hI hP).2, ?_⟩
  have := (lost_mono hv hi.le hS hM.le h0 le (le_refl |I / F|)).2
  have : 0 ≤ (lost v i S M p' (I / F) - lost v i S M p (I / F)) * F := mul_nonneg (sub_nonneg.mpr this) F0.le
  linarith

/-- **C238c.** With one array on a Sandia inverter that is not overloaded, wires that lose more never give more AC power. -/
theorem ac_no_more {n : Entry} {c c' : Chain} {s : Site} {x : Input} {r r' q q' : Results} (B : ButWires c c') (h : n.run c s x r = .ok q)
    (h' : n.run c' s x r' = .ok q') {a a' : PvArr} (ha : c.system.arrays = [a]) (ha' : c'.system.arrays = [a']) {v i S M p p' F : ℝ}
    (W : Wires c a v i S M p) (W' : Wires c' a' v i S M p') (hv : 0 ≤ v) (hi : 0 < i) (hS : 0 ≤ S) (hM : 0 < M) (h0 : 0 ≤ p) (le : p ≤ p')
    (hf : q.losses = some (fin F)) (F0 : 0 < F) {j : ℕ} {I P V : ℝ} (hI : Reads q 0 "i_mp" j I) (hP : Reads q 0 "p_mp" j P) (hV : Reads q 0 "v_mp" j V)
    (hac : c.ac = .sandia) {z : Props.Inverter.RealSandia} (hz : SandiaDict c.system.inverter_parameters z.toParams) (mild : InverterMono.Mild z V)
    (hC : z.C V ≤ 0) (hB : z.B V ≤ z.pso) (ho : InverterMono.NotOverloaded z V P) :
    ∃ ac ac' y y', q.ac = some ac ∧ q'.ac = some ac' ∧ ac j = fin y ∧ ac' j = fin y' ∧ y' ≤ y := by
  have ea : c.system.arrays[0]? = some a := by rw [ha]; rfl
  have ea' : c'.system.arrays[0]? = some a' := by rw [ha']; rfl
  obtain ⟨P', hP', hle⟩ := no_more B h h' ea ea' W W' hv hi hS hM h0 le hf F0 hI hP
  have hV' := ((wires_less B h h' ea ea' W W' (mul_pos hM hi).ne' hf F0.ne' hI hP).1 "v_mp" (by decide) V).mp hV
  have out : ∀ {c : Chain} {r q : Results} {a : PvArr} {P : ℝ}, Ran c s x r q → c.system.arrays = [a] → c.ac = .sandia →
      SandiaDict c.system.inverter_parameters z.toParams → Reads q 0 "p_mp" j P → Reads q 0 "v_mp" j V →
      ∃ ac, q.ac = some ac ∧ ac j = Inverter.sandia (fin V) (fin P) z.toParams := by
    intro c r q a P h ha hac hz hP hV
    obtain ⟨ac, ds, a1, a2, a3, a4⟩ := run_ac h
    unfold AcSpec at a4
    simp only [hac] at a4
    obtain ⟨ps, vs, b1, b2, b3⟩ := a4
    have hlen : c.system.arrays.length = 1 := by rw [ha]; rfl
    obtain ⟨d, rfl⟩ := List.length_eq_one_iff.mp (a2.trans hlen)
    have hd := a3 0 (by omega)
    simp only [List.getElem?_cons_zero] at hd
    obtain ⟨D, u, p1, p2, p3⟩ := hP
    obtain rfl := Option.some.inj (p1.symm.trans hd)
    obtain ⟨D', w, v1, v2, v3⟩ := hV
    have hDD := Option.some.inj (v1.symm.trans hd)
    subst hDD
    have col : ∀ {D : Dc} {name : String} {v u : Ser}, value D name = some v → Dc.col D name = .ok u → u = v := by
      intro D name v u h1 h2
      cases D with
      | series p => simp [Dc.col] at h2
      | frame f => exact Option.some.inj ((argOf_ok h2).symm.trans h1)
    obtain ⟨pw, rfl⟩ : ∃ pw, ps = [pw] := List.length_eq_one_iff.mp (by simpa using (congrArg List.length b1).symm)
    obtain ⟨vo, rfl⟩ : ∃ vo, vs = [vo] := List.length_eq_one_iff.mp (by simpa using (congrArg List.length b2).symm)
    simp only [List.map_cons, List.map_nil, List.cons.injEq, and_true] at b1 b2
    obtain rfl := col p2 b1
    obtain rfl := col v2 b2
    have e := b3 j
    rw [ac_sandia_one c.system (m := "sandia") (by decide +kernel) hlen hz (p := .tuple ([pw].map fun p => p j)) (v := .tuple ([vo].map fun p => p j)) (x := pw j) (y := vo j) ⟨rfl, rfl⟩ ⟨rfl, rfl⟩] at e
    exact ⟨ac, a1, by rw [← Except.ok.inj e, p3, v3]⟩
  have i1 : c'.system.inverter_parameters = c.system.inverter_parameters := by obtain ⟨_, B1, -⟩ := B; rw [B1]
  have i2 : c'.ac = c.ac := by obtain ⟨_, B1, -⟩ := B; rw [B1]
  obtain ⟨ac, e1, e2⟩ := out (ran_of h) ha hac hz hP hV
  obtain ⟨ac', e1', e2'⟩ := out (ran_of h') ha' (i2.trans hac) (by rw [i1]; exact hz) hP' hV'
  obtain ⟨y', y, k1, k2, k3⟩ := InverterMono.sandia_mono mild hle (.inr (.inl hC)) (fun _ => (lt_or_ge P z.pso).elim .inr fun h => .inl (hB.trans h)) ho
  exact ⟨ac, ac', y, y', e1, e1', e2.trans k2, e2'.trans k1, k3⟩

/-! ### Example: the array of twenty Sandia modules, with and without wires that lose three percent -/

open Pvlib.Props.ChainTotal Pvlib.Props.ChainWitness Pvlib.Props.ChainConfig

/-- An inverter of 4.5 kW. -/
def box : Props.Inverter.RealSandia := ⟨4500, 4700, 300, 20, -0.000001, 0, 0, 0, 2⟩

def boxDict : PyDict PVal :=
  [("Paco", .num (fin 4500)), ("Pdco", .num (fin 4700)), ("Vdco", .num (fin 300)), ("Pso", .num (fin 20)), ("C0", .num (fin (-0.000001))),
   ("C1", .num (fin 0)), ("C2", .num (fin 0)), ("C3", .num (fin 0)), ("Pnt", .num (fin 2))]

private theorem box_dict : SandiaDict boxDict box.toParams := by
  simp [SandiaDict, boxDict, box, Props.Inverter.RealSandia.toParams, entry, PyDict.get?]

def roof : PvArr :=
  { exArray with
    module_parameters := SapmLight.dict
    modules_per_string := fin 10
    strings := fin 2
    array_losses_parameters := [("dc_ohmic_percent", .num (fin 3))] }

def house (o : OhmicModel) : Chain := { SapmLight.chain with system := ⟨[roof], boxDict, []⟩, ohmic := o }

private theorem rated : Rated roof 30 7.6 := by
  refine ⟨("Vmpo", "Impo"), .inr (.inl ⟨rfl, ?_⟩), ?_, ?_⟩
  · simp [HasMp, roof, SapmLight.dict, PyDict.get?]
  · simp [entry, roof, SapmLight.dict, PyDict.get?]
  · simp [entry, roof, SapmLight.dict, PyDict.get?]

private theorem house_able (o : OhmicModel) (s : Site) : AblePower (house o) s := by
  have A := SapmLight.able s
  refine ⟨fun a ha w hw => ?_, fun ht a ha => ?_, ?_, ?_, .inl rfl, .inr ⟨rfl, by simp [house, SapmLight.chain], fun ps vs hp hv => ?_⟩⟩
  · obtain rfl : a = roof := by simpa [house] using ha
    exact A.temp _ (List.mem_singleton_self _) w hw
  · obtain rfl : a = roof := by simpa [house] using ha
    exact A.delta ht { exArray with module_parameters := SapmLight.dict, modules_per_string := fin 10, strings := fin 2 } (List.mem_singleton_self _)
  · obtain ⟨m, h1, h2⟩ := A.dc
    refine ⟨m, h1, fun a ha => ?_⟩
    obtain rfl : a = roof := by simpa [house] using ha
    exact h2 { exArray with module_parameters := SapmLight.dict, modules_per_string := fin 10, strings := fin 2 } (List.mem_singleton_self _)
  · cases o with
    | no_loss => exact .inl rfl
    | dc_ohms_from_percent =>
      refine .inr ⟨by simp [house, SapmLight.chain], fun a ha => ?_⟩
      obtain rfl : a = roof := by simpa [house] using ha
      exact ⟨_, ohms (c := house .dc_ohms_from_percent) (n := 10) (m := 2) (p := 3) ⟨rated, rfl, rfl, .inr ⟨rfl, by simp [entry, roof, PyDict.get?]⟩⟩ rfl (by norm_num)⟩
  · match ps, vs, hp, hv with
    | [x], [y], _, _ => exact ⟨_, ac_sandia_one ⟨[roof], boxDict, []⟩ (by decide +kernel) rfl box_dict (p := .tuple [x]) (v := .tuple [y]) ⟨rfl, rfl⟩ ⟨rfl, rfl⟩⟩

private theorem house_runs (o : OhmicModel) (n : Numerics) (t : Irradiance.PerezTable) (r : Results) (e T : ℝ) :
    ∃ q, runModelFromEff (house o) (exSite n t) (.frame (hour e T)) r = .ok q ∧ Light q 0 0 e T ∧ q.losses = some (fin 1) := by
  obtain ⟨q, h⟩ := run_eff_total (x := .frame (hour e T)) (house_able o (exSite n t)) (by simp [house]) (by simp [Strict, house, Bare]) (by
      intro d hd k hk
      simp only [frames, List.mem_cons, List.not_mem_nil, or_false] at hd
      subst hd
      simp only [List.mem_singleton] at hk
      subst hk
      simp [hour, PyDict.get?]) r
  obtain ⟨times, f, -, hl, p⟩ := run_eff_array h
  obtain ⟨w, e', t', d, g1, g2, g3, g4, g5, g6, d0, d1, u1, u2, u3⟩ := p 0 _ (List.getElem?_eq_getElem (by simp [house]))
  obtain rfl : hour e T = w := by simpa [frameFor] using g1
  have he : e' = fun _ => fin e := by simp [hour, PyDict.get?] at g2; exact g2.symm
  have ht : t' = fun _ => fin T := by simpa [CellSpec, hour, PyDict.get?] using g6
  refine ⟨q, h, ⟨e', t', g3, g4, by rw [he], by rw [ht]⟩, ?_⟩
  rw [hl, u3.2, one_eq]

/-- In one sun the array delivers 4560 W; the wires lose 3 percent of it, 136.8 W; the inverter delivers less. -/
example (n : Numerics) (t : Irradiance.PerezTable) (r : Results) : ∃ q q' ac ac' y y',
    runModelFromEff (house .no_loss) (exSite n t) (.frame (hour 1000 25)) r = .ok q ∧ runModelFromEff (house .dc_ohms_from_percent) (exSite n t) (.frame (hour 1000 25)) r = .ok q' ∧
    Reads q 0 "p_mp" 0 4560 ∧ Reads q' 0 "p_mp" 0 4423.2 ∧ q.ac = some ac ∧ q'.ac = some ac' ∧ ac 0 = fin y ∧ ac' 0 = fin y' ∧ y' ≤ y := by
  obtain ⟨q, h, l, f⟩ := house_runs .no_loss n t r 1000 25
  obtain ⟨q', h', -, -⟩ := house_runs .dc_ohms_from_percent n t r 1000 25
  have B : ButWires (house .no_loss) (house .dc_ohms_from_percent) := ⟨fun _ => roof.array_losses_parameters, rfl, fun k => by cases k <;> rfl⟩
  have fit : SapmLight.Fit roof SapmLight.demo 10 2 := ⟨SapmLight.fit.holds, rfl, rfl⟩
  have W : Wires (house .no_loss) roof 30 7.6 10 2 0 := ⟨rated, rfl, rfl, .inl ⟨rfl, rfl⟩⟩
  have W' : Wires (house .dc_ohms_from_percent) roof 30 7.6 10 2 3 := ⟨rated, rfl, rfl, .inr ⟨rfl, by simp [entry, roof, PyDict.get?]⟩⟩
  have cols := SapmLight.dc_columns (.inr (.inr h)) rfl rfl (k := 0) (i := 0) (a := roof) rfl fit l (by norm_num) f
  have ei : SapmLight.imp SapmLight.demo (1000 / 1000) 25 = 7.6 := by norm_num [SapmLight.imp, SapmLight.demo]
  have ev : SapmLight.vmp SapmLight.demo (1000 / 1000) 25 = 30 := by norm_num [SapmLight.vmp, SapmLight.demo]
  rw [ei, ev] at cols
  have read : ∀ {name : String} {y : ℝ}, ChainDiode.Column q 0 0 name y → Reads q 0 name 0 y := fun ⟨fr, col, k1, k2, k3⟩ => ⟨_, col, k1, k2, k3⟩
  have hI : Reads q 0 "i_mp" 0 15.2 := by
    have := read cols.2.1
    norm_num at this ⊢
    exact this
  have hV : Reads q 0 "v_mp" 0 300 := by
    have := read cols.2.2.2.1
    norm_num at this ⊢
    exact this
  have hP : Reads q 0 "p_mp" 0 4560 := by
    have := read cols.2.2.2.2
    norm_num at this ⊢
    exact this
  have less := (wires_less (n := .effective) (s := exSite n t) (x := .frame (hour 1000 25)) (r := r) (r' := r) B h h' rfl rfl W W' (by norm_num) f (by norm_num) hI hP).2
  obtain ⟨ac, ac', y, y', k1, k2, k3, k4, k5⟩ := ac_no_more (n := .effective) (s := exSite n t) (x := .frame (hour 1000 25)) (r := r) (r' := r) B h h' rfl rfl W W' (by norm_num) (by norm_num) (by norm_num) (by norm_num) (by norm_num)
    (by norm_num) f (by norm_num) hI hP hV rfl (z := box) box_dict (by
      constructor <;> norm_num [box, Props.Inverter.RealSandia.A, Props.Inverter.RealSandia.B, Props.Inverter.RealSandia.C])
    (by norm_num [box, Props.Inverter.RealSandia.C]) (by norm_num [box, Props.Inverter.RealSandia.B])
    (by norm_num [InverterMono.NotOverloaded, box, Props.Inverter.RealSandia.A, Props.Inverter.RealSandia.B, Props.Inverter.RealSandia.C])
  refine ⟨q, q', ac, ac', y, y', h, h', hP, ?_, k1, k2, k3, k4, k5⟩
  have e : (4560 : ℝ) - (lost 30 7.6 10 2 3 (15.2 / 1) - lost 30 7.6 10 2 0 (15.2 / 1)) * 1 = 4423.2 := by norm_num [lost]
  rw [e] at less
  exact less

end Pvlib.Props.ChainWires
end
