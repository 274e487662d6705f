import Verif.Spec.Legendre
import Mathlib.Analysis.SpecialFunctions.Trigonometric.Inverse
import Mathlib.Algebra.Polynomial.AlgebraMap

/-! # Gaussian latitudes (specification) -/

namespace Grib.Spec

/-- `z 0 > z 1 > ... > z (n-1)` are all the real zeros of the Legendre polynomial of degree `n`. -/
structure LegendreZeros (n : Nat) (z : Nat → ℝ) : Prop where
  decreasing : ∀ i j, i < j → j < n → z j < z i
  zeros : ∀ x : ℝ, Polynomial.aeval x (legendre n) = 0 ↔ ∃ i < n, z i = x

/-- The latitude, in degrees, whose sine is `z`. -/
noncomputable def latitudeOf (z : ℝ) : ℝ := Real.arcsin z * (180 / Real.pi)

end Grib.Spec
