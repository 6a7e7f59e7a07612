import Verif.Base.Py

/-!
# Shared specification vocabulary

Plain real-number geometry, independent of the model.
-/

noncomputable section
open Real
namespace Pvlib.Spec

/-- Degrees to radians. -/
def rad (d : ℝ) : ℝ := d * (π / 180)
/-- Cosine of an angle in degrees. -/
abbrev cosDeg (d : ℝ) : ℝ := Real.cos (d * (π / 180))
/-- Sine of an angle in degrees. -/
abbrev sinDeg (d : ℝ) : ℝ := Real.sin (d * (π / 180))

/-- A vector in the local frame (east, north, up). -/
structure Vec where
  (x y z : ℝ)
@[ext] theorem Vec.ext' {a b : Vec} (h1 : a.x = b.x) (h2 : a.y = b.y) (h3 : a.z = b.z) : a = b := by
  cases a; cases b; simp_all

/-- Dot product. -/
def dot (a b : Vec) : ℝ := a.x * b.x + a.y * b.y + a.z * b.z
/-- Cross product. -/
def cross (a b : Vec) : Vec := ⟨a.y * b.z - a.z * b.y, a.z * b.x - a.x * b.z, a.x * b.y - a.y * b.x⟩
/-- Length. -/
def norm (a : Vec) : ℝ := Real.sqrt (dot a a)

/-- The unit vector at angle `zenith` from vertical towards the compass direction `azimuth`
(degrees; azimuth clockwise from north): the direction of a sun position, and the normal of a
surface with that tilt and azimuth. -/
def dirVec (zenith azimuth : ℝ) : Vec :=
  ⟨sinDeg zenith * sinDeg azimuth, sinDeg zenith * cosDeg azimuth, cosDeg zenith⟩

theorem dot_dirVec_self (z a : ℝ) : dot (dirVec z a) (dirVec z a) = 1 := by
  simp only [dot, dirVec]
  have h1 := Real.sin_sq_add_cos_sq (z * (π / 180))
  have h2 := Real.sin_sq_add_cos_sq (a * (π / 180))
  linear_combination h1 + (Real.sin (z * (π/180))) ^ 2 * h2

/-- Cauchy-Schwarz in three dimensions. -/
theorem dot_sq_le (a b : Vec) : (dot a b) ^ 2 ≤ dot a a * dot b b := by
  have := sq_nonneg (a.x * b.y - a.y * b.x)
  have := sq_nonneg (a.y * b.z - a.z * b.y)
  have := sq_nonneg (a.z * b.x - a.x * b.z)
  simp only [dot]
  nlinarith

theorem dot_dirVec_le (z a z' a' : ℝ) : |dot (dirVec z a) (dirVec z' a')| ≤ 1 := by
  have h := dot_sq_le (dirVec z a) (dirVec z' a')
  rw [dot_dirVec_self, dot_dirVec_self] at h
  exact abs_le_one_iff_mul_self_le_one.mpr (by nlinarith)

end Pvlib.Spec
end
