import Mathlib.Analysis.InnerProductSpace.PiL2
import Mathlib.Analysis.InnerProductSpace.Projection.Minimal
import Mathlib.Analysis.InnerProductSpace.Projection.Submodule
import Mathlib.Analysis.InnerProductSpace.Projection.FiniteDimensional
import Mathlib.Algebra.Polynomial.Degree.Lemmas
import Mathlib.Algebra.Polynomial.Roots
import Mathlib.RingTheory.Polynomial.DegreeLT

/-! # Least squares: existence of minimisers (shows that the specification assumed of `numpy`'s fits can be met) -/

noncomputable section
open scoped Classical
namespace Pvlib.LstSq

/-- Every linear least-squares problem over finitely many equations has a solution. -/
theorem exists_minimiser {E : Type*} [AddCommGroup E] [Module ℝ E] (m : ℕ)
    (f : E →ₗ[ℝ] (Fin m → ℝ)) (b : Fin m → ℝ) :
    ∃ x : E, ∀ y : E, ∑ j, (f x j - b j) ^ 2 ≤ ∑ j, (f y j - b j) ^ 2 := by
  let e := (WithLp.linearEquiv 2 ℝ (Fin m → ℝ)).symm
  let K : Submodule ℝ (EuclideanSpace ℝ (Fin m)) := LinearMap.range (e.toLinearMap ∘ₗ f)
  obtain ⟨v, hv, hmin⟩ := K.exists_norm_eq_iInf_of_complete_subspace
    (Submodule.complete_of_finiteDimensional K) (e b)
  obtain ⟨x, rfl⟩ := hv
  refine ⟨x, fun y => ?_⟩
  have h1 : ‖e b - (e.toLinearMap ∘ₗ f) x‖ ≤ ‖e b - (e.toLinearMap ∘ₗ f) y‖ := by
    rw [hmin]
    exact ciInf_le ⟨0, by rintro _ ⟨w, rfl⟩; exact norm_nonneg _⟩ (⟨_, LinearMap.mem_range_self _ y⟩ : K)
  have h2 : ∀ z : E, ∑ j, (f z j - b j) ^ 2 = ‖e b - (e.toLinearMap ∘ₗ f) z‖ ^ 2 := by
    intro z
    rw [EuclideanSpace.norm_sq_eq]
    apply Finset.sum_congr rfl
    intro j _
    have : (e b - (e.toLinearMap ∘ₗ f) z) j = b j - f z j := rfl
    rw [this, Real.norm_eq_abs, sq_abs]; ring
  rw [h2, h2]
  exact pow_le_pow_left₀ (norm_nonneg _) h1 2

end Pvlib.LstSq
