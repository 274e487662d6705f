import Mathlib.Algebra.Polynomial.Derivative
import Mathlib.Algebra.Polynomial.Eval.Degree
import Mathlib.Algebra.Field.Rat

/-! # Legendre polynomials (specification) -/

namespace Grib.Spec

open Polynomial

/-- Legendre polynomials, by the formula of Rodrigues: `P_n = 1/(2^n n!) · dⁿ/dxⁿ (x² - 1)ⁿ`. -/
noncomputable def legendre (n : Nat) : ℚ[X] :=
  C (1 / (2 ^ n * (n.factorial : ℚ))) * derivative^[n] ((X ^ 2 - 1) ^ n)

end Grib.Spec
