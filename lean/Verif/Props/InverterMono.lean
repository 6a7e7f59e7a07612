import Verif.Props.Inverter

/-! # Property C228: more DC power never gives less AC power (Sandia and ADR inverters), until the Sandia parabola turns -/

noncomputable section
open scoped Classical
namespace Pvlib.Props.InverterMono
open Fl Pvlib.Inverter Pvlib.Props.Inverter

/-! ### Sandia -/

/-- The curvature is mild: at this voltage the published curve does not turn between start-up and rated power. -/
def Mild (s : RealSandia) (v : ℝ) : Prop := s.B v < s.A v ∧ |s.C v| * (s.A v - s.B v) ^ 2 ≤ s.paco

/-- The DC power is below the second crossing of the curve with `Paco`. -/
def NotOverloaded (s : RealSandia) (v p : ℝ) : Prop := 0 ≤ s.paco + s.C v * (s.A v - s.B v) * (p - s.B v)

/-- The published curve, in terms of its two crossings with the rated power. -/
theorem curve_sub_rated {s : RealSandia} {v : ℝ} (h : s.B v < s.A v) (p : ℝ) :
    s.curve v p - s.paco = (p - s.A v) * ((s.paco + s.C v * (s.A v - s.B v) * (p - s.B v)) / (s.A v - s.B v)) := by
  have hD : s.A v - s.B v ≠ 0 := (sub_pos.mpr h).ne'
  unfold RealSandia.curve
  field_simp
  ring

/-- The inverter delivers its rating exactly from the (voltage dependent) rated DC power up to the second crossing. -/
theorem sandia_rated_iff {s : RealSandia} {v p : ℝ} (h : s.B v < s.A v) (hp : s.pso ≤ p) :
    sandia (fin v) (fin p) s.toParams = fin s.paco ↔
      (s.A v ≤ p ∧ NotOverloaded s v p) ∨ (p ≤ s.A v ∧ s.paco + s.C v * (s.A v - s.B v) * (p - s.B v) ≤ 0) := by
  rw [sandia_operating s v p h.ne' hp, fin_inj, min_eq_left_iff, ← sub_nonneg, curve_sub_rated h]
  have hD : 0 < s.A v - s.B v := sub_pos.mpr h
  unfold NotOverloaded
  rw [mul_nonneg_iff, le_div_iff₀ hD, div_le_iff₀ hD, zero_mul, sub_nonneg, sub_nonpos]

example : demo.B 45 < demo.A 45 ∧ demo.pso ≤ 270 ∧ demo.A 45 ≤ 270 ∧ NotOverloaded demo 45 270 := by
  norm_num [NotOverloaded, demo, RealSandia.A, RealSandia.B, RealSandia.C]

private theorem curve_diff (s : RealSandia) (v p q : ℝ) :
    s.curve v q - s.curve v p = (q - p) * (s.paco / (s.A v - s.B v) + s.C v * ((p - s.B v) + (q - s.A v))) := by
  unfold RealSandia.curve
  ring

/-- The part of the curve below the rated power rises. -/
private theorem rises {s : RealSandia} {v : ℝ} (h : Mild s v) {p q : ℝ} (hpq : p ≤ q) (hB : s.C v ≤ 0 ∨ s.B v ≤ p) (hA : q ≤ s.A v) :
    s.curve v p ≤ s.curve v q := by
  obtain ⟨h1, h2⟩ := h
  have hD : 0 < s.A v - s.B v := sub_pos.mpr h1
  rw [← sub_nonneg, curve_diff]
  refine mul_nonneg (sub_nonneg.mpr hpq) ?_
  have h3 : |s.C v| * (s.A v - s.B v) ≤ s.paco / (s.A v - s.B v) := by
    rw [le_div_iff₀ hD, mul_assoc, ← pow_two]
    exact h2
  rcases hB with hC | hB
  · rw [abs_of_nonpos hC] at h3
    nlinarith
  · have h4 : -(|s.C v| * (s.A v - s.B v)) ≤ s.C v * ((p - s.B v) + (q - s.A v)) := by
      rcases abs_cases (s.C v) with ⟨e, hc⟩ | ⟨e, hc⟩ <;> rw [e] <;> nlinarith
    linarith

/-- More DC power at the same voltage never gives less AC power: across start-up, in operation and at the rating. -/
theorem sandia_mono {s : RealSandia} {v : ℝ} (h : Mild s v) {p q : ℝ} (hpq : p ≤ q) (hp : p < s.pso ∨ s.C v ≤ 0 ∨ s.B v ≤ p)
    (hq : p < s.pso → s.B v ≤ q ∨ q < s.pso) (ho : NotOverloaded s v q) :
    ∃ P Q, sandia (fin v) (fin p) s.toParams = fin P ∧ sandia (fin v) (fin q) s.toParams = fin Q ∧ P ≤ Q := by
  obtain ⟨h1, h2⟩ := h
  have hD : 0 < s.A v - s.B v := sub_pos.mpr h1
  have hpos : 0 ≤ s.paco := le_trans (by positivity) h2
  have clip : ∀ {t : ℝ}, s.A v ≤ t → NotOverloaded s v t → s.pso ≤ t → sandia (fin v) (fin t) s.toParams = fin s.paco := fun ht hn hs =>
    (sandia_rated_iff h1 hs).mpr (.inl ⟨ht, hn⟩)
  by_cases hps : p < s.pso
  · have e1 := sandia_night (fin v) (fin p) s.toParams s.pnt rfl (by simpa [RealSandia.toParams] using hps)
    by_cases hqs : q < s.pso
    · exact ⟨_, _, e1, sandia_night (fin v) (fin q) s.toParams s.pnt rfl (by simpa [RealSandia.toParams] using hqs), le_rfl⟩
    · push Not at hqs
      refine ⟨_, _, e1, sandia_operating s v q h1.ne' hqs, ?_⟩
      have hBq : s.B v ≤ q := (hq hps).resolve_right (not_lt.mpr hqs)
      have h3 : 0 ≤ min s.paco (s.curve v q) := by
        refine le_min hpos ?_
        by_cases hqA : q ≤ s.A v
        · have := rises (p := s.B v) ⟨h1, h2⟩ hBq (.inr le_rfl) hqA
          have e : s.curve v (s.B v) = 0 := by simp [RealSandia.curve]
          linarith
        · push Not at hqA
          have := curve_sub_rated h1 q
          have : 0 ≤ s.curve v q - s.paco := by
            rw [this]
            exact mul_nonneg (by linarith) (div_nonneg ho hD.le)
          linarith
      have := abs_nonneg s.pnt
      linarith
  · push Not at hps
    have hB := hp.resolve_left (not_lt.mpr hps)
    refine ⟨_, _, sandia_operating s v p h1.ne' hps, sandia_operating s v q h1.ne' (hps.trans hpq), ?_⟩
    by_cases hqA : q ≤ s.A v
    · exact min_le_min le_rfl (rises ⟨h1, h2⟩ hpq hB hqA)
    · push Not at hqA
      have e := clip hqA.le ho (hps.trans hpq)
      rw [sandia_operating s v q h1.ne' (hps.trans hpq)] at e
      rw [Fl.fin.inj e]
      exact min_le_left _ _

example : Mild demo 45 ∧ demo.C 45 ≤ 0 ∧ demo.B 45 ≤ 300 ∧ NotOverloaded demo 45 300 := by
  have : |demo.C 45| = -demo.C 45 := abs_of_nonpos (by norm_num [demo, RealSandia.C])
  refine ⟨⟨?_, ?_⟩, ?_, ?_, ?_⟩
  · norm_num [demo, RealSandia.A, RealSandia.B]
  · rw [this]; norm_num [demo, RealSandia.A, RealSandia.B, RealSandia.C]
  all_goals norm_num [NotOverloaded, demo, RealSandia.A, RealSandia.B, RealSandia.C]

/-- Beyond the second crossing of a curve that bends down, output falls below the rating and further with every watt. -/
theorem sandia_overload {s : RealSandia} {v : ℝ} (h1 : s.B v < s.A v) (hC : s.C v ≤ 0) {p q : ℝ} (hs : s.pso ≤ p) (hp : s.A v ≤ p) (ho : ¬ NotOverloaded s v q)
    (hpq : p < q) (hoo : s.paco + s.C v * (s.A v - s.B v) * (p - s.B v) ≤ 0) :
    ∃ P Q, sandia (fin v) (fin p) s.toParams = fin P ∧ sandia (fin v) (fin q) s.toParams = fin Q ∧ Q < P ∧ P ≤ s.paco := by
  have hD : 0 < s.A v - s.B v := sub_pos.mpr h1
  refine ⟨_, _, sandia_operating s v p h1.ne' hs, sandia_operating s v q h1.ne' (hs.trans hpq.le), ?_, min_le_left _ _⟩
  unfold NotOverloaded at ho
  push Not at ho
  have e1 := curve_sub_rated h1 p
  have e2 := curve_sub_rated h1 q
  have k : (s.paco + s.C v * (s.A v - s.B v) * (q - s.B v)) / (s.A v - s.B v) < 0 := div_neg_of_neg_of_pos ho hD
  have k1 : (s.paco + s.C v * (s.A v - s.B v) * (q - s.B v)) / (s.A v - s.B v) ≤ (s.paco + s.C v * (s.A v - s.B v) * (p - s.B v)) / (s.A v - s.B v) := by
    apply div_le_div_of_nonneg_right _ hD.le
    have : s.C v * (s.A v - s.B v) ≤ 0 := mul_nonpos_of_nonpos_of_nonneg hC hD.le
    nlinarith
  have k2 : (s.paco + s.C v * (s.A v - s.B v) * (p - s.B v)) / (s.A v - s.B v) ≤ 0 := div_nonpos_of_nonpos_of_nonneg hoo hD.le
  have k3 : (q - s.A v) * ((s.paco + s.C v * (s.A v - s.B v) * (q - s.B v)) / (s.A v - s.B v)) <
      (p - s.A v) * ((s.paco + s.C v * (s.A v - s.B v) * (p - s.B v)) / (s.A v - s.B v)) := by nlinarith
  have k4 : s.curve v q < s.curve v p := by linarith
  have k5 : s.curve v q < s.paco := by nlinarith
  rw [min_eq_right k5.le]
  exact lt_min k5 k4

/-- An oversized array: the 250 W inverter of the examples gives less at 31 kW than at 30 kW. -/
example : ∃ P Q, sandia (fin 40) (fin 30000) demo.toParams = fin P ∧ sandia (fin 40) (fin 31000) demo.toParams = fin Q ∧ Q < P ∧ P ≤ 250 :=
  sandia_overload (s := demo) (by norm_num [demo, RealSandia.A, RealSandia.B]) (by norm_num [demo, RealSandia.C]) (by norm_num [demo])
    (by norm_num [demo, RealSandia.A]) (by norm_num [NotOverloaded, demo, RealSandia.A, RealSandia.B, RealSandia.C]) (by norm_num)
    (by norm_num [demo, RealSandia.A, RealSandia.B, RealSandia.C])

/-- The inverter never gives more than it takes, if even at light load its efficiency is at most one. -/
theorem sandia_le_dc {s : RealSandia} {v p : ℝ} (h : s.B v < s.A v) (hC : s.C v ≤ 0) (h0 : 0 ≤ s.B v) (hp : 0 ≤ p)
    (he : s.paco - s.C v * (s.A v - s.B v) ^ 2 ≤ s.A v - s.B v) (hn : 0 ≤ s.paco) : ∃ P, sandia (fin v) (fin p) s.toParams = fin P ∧ P ≤ p := by
  have hD : 0 < s.A v - s.B v := sub_pos.mpr h
  by_cases hps : p < s.pso
  · refine ⟨_, sandia_night (fin v) (fin p) s.toParams s.pnt rfl (by simpa [RealSandia.toParams] using hps), ?_⟩
    have := abs_nonneg s.pnt
    linarith
  · push Not at hps
    refine ⟨_, sandia_operating s v p h.ne' hps, (min_le_right _ _).trans ?_⟩
    have k : s.paco / (s.A v - s.B v) - s.C v * (s.A v - s.B v) ≤ 1 := by
      rw [sub_le_iff_le_add, div_le_iff₀ hD]
      nlinarith
    have k0 : 0 ≤ s.paco / (s.A v - s.B v) - s.C v * (s.A v - s.B v) := by
      have : 0 ≤ s.paco / (s.A v - s.B v) := by positivity
      nlinarith
    unfold RealSandia.curve
    by_cases hB : s.B v ≤ p
    · nlinarith [sq_nonneg (p - s.B v), mul_le_mul_of_nonneg_right k (sub_nonneg.mpr hB), mul_nonneg (neg_nonneg.mpr hC) (sq_nonneg (p - s.B v))]
    · push Not at hB
      nlinarith [sq_nonneg (p - s.B v), mul_nonneg k0 (sub_nonneg.mpr hB.le), mul_nonneg (neg_nonneg.mpr hC) (sq_nonneg (p - s.B v))]

example : demo.B 45 < demo.A 45 ∧ demo.C 45 ≤ 0 ∧ 0 ≤ demo.B 45 ∧ demo.paco - demo.C 45 * (demo.A 45 - demo.B 45) ^ 2 ≤ demo.A 45 - demo.B 45 := by
  norm_num [demo, RealSandia.A, RealSandia.B, RealSandia.C]

/-! ### ADR -/

/-- Nine loss coefficients, three for each power of DC power. -/
structure Losses where
  (b0 b1 b2 b3 b4 b5 b6 b7 b8 : ℝ)

/-- The coefficients at a voltage (relative to nominal): Driesse's loss is `L0 + L1 x + L2 x²`. -/
def Losses.L0 (b : Losses) (y : ℝ) : ℝ := b.b0 + b.b3 * (y - 1) + b.b6 * (1 / y - 1)
def Losses.L1 (b : Losses) (y : ℝ) : ℝ := b.b1 + b.b4 * (y - 1) + b.b7 * (1 / y - 1)
def Losses.L2 (b : Losses) (y : ℝ) : ℝ := b.b2 + b.b5 * (y - 1) + b.b8 * (1 / y - 1)
/-- Loss as a share of nominal power, at DC power `x` and voltage `y` relative to nominal. -/
def Losses.at (b : Losses) (x y : ℝ) : ℝ := b.L0 y + b.L1 y * x + b.L2 y * x ^ 2

/-- A real-valued inverter dictionary. -/
structure RealAdr where
  (pnom vnom pmax pnt vmax vmin vdcmax hi lo : ℝ)
  b : Losses

/-- The dictionary holding these numbers. -/
def RealAdr.toParams (s : RealAdr) : AdrParams :=
  ⟨fin s.pnom, fin s.vnom, fin s.pmax, fin s.pnt, [fin s.b.b0, fin s.b.b1, fin s.b.b2, fin s.b.b3, fin s.b.b4, fin s.b.b5, fin s.b.b6, fin s.b.b7, fin s.b.b8],
    fin s.vmax, fin s.vmin, fin s.vdcmax, fin s.hi, fin s.lo⟩

/-- The voltage is in the window the model accepts. -/
structure InWindow (s : RealAdr) (v tol : ℝ) : Prop where
  rating : 0 < s.pnom
  nominal : s.vnom ≠ 0
  live : v ≠ 0
  low : max s.vmin s.lo * (1 - tol) ≤ v
  high : v ≤ max s.vmax (max s.vdcmax s.hi) * (1 + tol)

/-- In the window: DC power less losses, within the limits. -/
theorem adr_value {s : RealAdr} {v tol : ℝ} (w : InWindow s v tol) (p : ℝ) :
    adr (fin v) (fin p) s.toParams (fin tol) = fin (min (max (p - s.pnom * s.b.at (p / s.pnom) (v / s.vnom)) (-|s.pnt|)) s.pmax) := by
  have hp := w.rating.ne'
  unfold RealAdr.toParams
  rw [adr_operating v p s.pnom s.vnom s.pmax s.pnt s.vmax s.vmin s.vdcmax s.hi s.lo tol s.b.b0 s.b.b1 s.b.b2 s.b.b3 s.b.b4 s.b.b5 s.b.b6 s.b.b7 s.b.b8 hp w.nominal w.live w.low w.high]
  have e : ∀ L : ℝ, s.pnom * (p / s.pnom - L) = p - s.pnom * L := fun L => by rw [mul_sub, mul_div_cancel₀ _ hp]
  simp only [e, Losses.at, Losses.L0, Losses.L1, Losses.L2]
  congr 4
  ring

/-- More DC power at the same voltage never gives less AC power, as long as one more watt loses less than a watt. -/
theorem adr_mono {s : RealAdr} {v tol : ℝ} (w : InWindow s v tol) {p q : ℝ} (hpq : p ≤ q)
    (hp : s.b.L1 (v / s.vnom) + 2 * s.b.L2 (v / s.vnom) * (p / s.pnom) ≤ 1) (hq : s.b.L1 (v / s.vnom) + 2 * s.b.L2 (v / s.vnom) * (q / s.pnom) ≤ 1) :
    ∃ P Q, adr (fin v) (fin p) s.toParams (fin tol) = fin P ∧ adr (fin v) (fin q) s.toParams (fin tol) = fin Q ∧ P ≤ Q := by
  refine ⟨_, _, adr_value w p, adr_value w q, min_le_min (max_le_max ?_ le_rfl) le_rfl⟩
  have hn := w.rating
  generalize v / s.vnom = y at *
  obtain ⟨x, rfl⟩ : ∃ x, p = s.pnom * x := ⟨p / s.pnom, by field_simp⟩
  obtain ⟨z, rfl⟩ : ∃ z, q = s.pnom * z := ⟨q / s.pnom, by field_simp⟩
  rw [mul_div_cancel_left₀ _ hn.ne'] at hp hq ⊢
  rw [mul_div_cancel_left₀ _ hn.ne']
  have hxz : x ≤ z := le_of_mul_le_mul_left hpq hn
  rw [← mul_sub, ← mul_sub]
  refine mul_le_mul_of_nonneg_left ?_ hn.le
  unfold Losses.at
  nlinarith [mul_nonneg (sub_nonneg.mpr hxz) (show 0 ≤ 1 - s.b.L1 y - s.b.L2 y * (x + z) by linarith)]

/-- The inverter never gives more than it takes, wherever the loss polynomial is not negative (and DC power covers the tare). -/
theorem adr_le_dc {s : RealAdr} {v tol : ℝ} (w : InWindow s v tol) {p : ℝ} (hl : 0 ≤ s.b.at (p / s.pnom) (v / s.vnom)) (hp : -|s.pnt| ≤ p) :
    ∃ P, adr (fin v) (fin p) s.toParams (fin tol) = fin P ∧ P ≤ p := by
  refine ⟨_, adr_value w p, (min_le_left _ _).trans (max_le ?_ hp)⟩
  have := mul_nonneg w.rating.le hl
  linarith

/-- Full output: the limit `pmax` is delivered exactly when DC power less losses reaches it. -/
theorem adr_rated_iff {s : RealAdr} {v tol : ℝ} (w : InWindow s v tol) (h : -|s.pnt| < s.pmax) (p : ℝ) :
    adr (fin v) (fin p) s.toParams (fin tol) = fin s.pmax ↔ s.pmax ≤ p - s.pnom * s.b.at (p / s.pnom) (v / s.vnom) := by
  rw [adr_value w, fin_inj, min_eq_right_iff, le_max_iff]
  exact ⟨fun k => k.resolve_right (not_le.mpr h), .inl⟩

/-- An inverter of the order of the documentation's example. -/
def adrDemo : RealAdr := ⟨2000, 320, 1960, 0.2, 600, 150, 600, 480, 250, ⟨0.01385, 0.0152, 0.00794, 0.00286, -0.01872, -0.01305, 0, 0, 0⟩⟩

theorem adrDemo_window : InWindow adrDemo 400 0.1 := by
  constructor <;> norm_num [adrDemo]

example : ∃ P Q, adr (fin 400) (fin 900) adrDemo.toParams (fin 0.1) = fin P ∧ adr (fin 400) (fin 1500) adrDemo.toParams (fin 0.1) = fin Q ∧ P ≤ Q :=
  adr_mono adrDemo_window (by norm_num) (by norm_num [adrDemo, Losses.L1, Losses.L2]) (by norm_num [adrDemo, Losses.L1, Losses.L2])

example : ∃ P, adr (fin 400) (fin 900) adrDemo.toParams (fin 0.1) = fin P ∧ P ≤ 900 :=
  adr_le_dc adrDemo_window (by norm_num [adrDemo, Losses.at, Losses.L0, Losses.L1, Losses.L2]) (by have := abs_nonneg adrDemo.pnt; linarith)

end Pvlib.Props.InverterMono
end
