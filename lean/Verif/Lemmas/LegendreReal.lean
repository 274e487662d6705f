import Verif.Lemmas.Legendre
import Mathlib.Algebra.Polynomial.AlgebraMap
import Mathlib.Analysis.Calculus.Deriv.Polynomial
import Mathlib.Algebra.Polynomial.Roots
import Mathlib.Topology.Algebra.Polynomial
import Mathlib.Analysis.Calculus.MeanValue

/-! # Legendre polynomials over the reals: recurrences, the differential equation, parity -/

namespace Grib.Spec

open Polynomial

/-- The Legendre polynomial of degree `n` with real coefficients. -/
noncomputable def legendreR (n : Nat) : ℝ[X] := (legendre n).map (algebraMap ℚ ℝ)

theorem legendreR_zero : legendreR 0 = 1 := by
  unfold legendreR
  have : legendre 0 = 1 := Polynomial.funext fun x => by rw [legendre_zero]; simp
  rw [this]; simp

theorem legendreR_one : legendreR 1 = X := by
  unfold legendreR
  have : legendre 1 = X := Polynomial.funext fun x => by rw [legendre_one]; simp
  rw [this]; simp

theorem legendreR_bonnet (n : Nat) : ((n : ℝ[X]) + 2) * legendreR (n + 2) =
    (2 * (n : ℝ[X]) + 3) * (X * legendreR (n + 1)) - ((n : ℝ[X]) + 1) * legendreR n := by
  have h : ((n : ℚ[X]) + 2) * legendre (n + 2) =
      (2 * (n : ℚ[X]) + 3) * (X * legendre (n + 1)) - ((n : ℚ[X]) + 1) * legendre n := by
    apply Polynomial.funext
    intro x
    have := legendre_bonnet n x
    simp only [eval_sub, eval_mul, eval_natCast, eval_X, eval_add, eval_ofNat, eval_one]
    exact this
  have h2 := congrArg (Polynomial.map (algebraMap ℚ ℝ)) h
  simpa [legendreR, Polynomial.map_mul, Polynomial.map_add, Polynomial.map_sub] using h2

theorem legendreR_derivative_poly (n : Nat) : (1 - X ^ 2) * derivative (legendreR (n + 1)) =
    ((n : ℝ[X]) + 1) * (legendreR n - X * legendreR (n + 1)) := by
  have h : (1 - X ^ 2) * derivative (legendre (n + 1)) = ((n : ℚ[X]) + 1) * (legendre n - X * legendre (n + 1)) := by
    apply Polynomial.funext
    intro x
    have := legendre_derivative n x
    simp only [eval_sub, eval_mul, eval_natCast, eval_X, eval_add, eval_one, eval_pow]
    exact this
  have h2 := congrArg (Polynomial.map (algebraMap ℚ ℝ)) h
  simpa [legendreR, Polynomial.map_mul, Polynomial.map_add, Polynomial.map_sub, Polynomial.derivative_map] using h2

/-! ## Values -/

/-- `P_n(x)`, `P_n'(x)`, `P_n''(x)`. -/
noncomputable def P (n : Nat) (x : ℝ) : ℝ := (legendreR n).eval x
noncomputable def P' (n : Nat) (x : ℝ) : ℝ := (derivative (legendreR n)).eval x
noncomputable def P'' (n : Nat) (x : ℝ) : ℝ := (derivative (derivative (legendreR n))).eval x

theorem P_zero (x : ℝ) : P 0 x = 1 := by simp [P, legendreR_zero]
theorem P_one (x : ℝ) : P 1 x = x := by simp [P, legendreR_one]

theorem P_bonnet (n : Nat) (x : ℝ) : ((n : ℝ) + 2) * P (n + 2) x = (2 * n + 3) * (x * P (n + 1) x) - (n + 1) * P n x := by
  have h := congrArg (Polynomial.eval x) (legendreR_bonnet n)
  simpa [P] using h

theorem P_derivative (n : Nat) (x : ℝ) : (1 - x ^ 2) * P' (n + 1) x = ((n : ℝ) + 1) * (P n x - x * P (n + 1) x) := by
  have h := congrArg (Polynomial.eval x) (legendreR_derivative_poly n)
  simpa [P, P'] using h

/-- The derivative in terms of the next polynomial. -/
theorem P_derivative_next (n : Nat) (x : ℝ) : (1 - x ^ 2) * P' n x = ((n : ℝ) + 1) * (x * P n x - P (n + 1) x) := by
  cases n with
  | zero => simp [P_zero, P_one, P', legendreR_zero]
  | succ m =>
    have h1 := P_derivative m x
    have h2 := P_bonnet m x
    push_cast
    linear_combination h1 + h2

theorem hasDerivAt_P (n : Nat) (x : ℝ) : HasDerivAt (P n) (P' n x) x := (legendreR n).hasDerivAt x
theorem hasDerivAt_P' (n : Nat) (x : ℝ) : HasDerivAt (P' n) (P'' n x) x := (derivative (legendreR n)).hasDerivAt x

/-- The differential equation of Legendre. -/
theorem P_ode (n : Nat) (x : ℝ) (hx : x ^ 2 ≠ 1) :
    (1 - x ^ 2) * P'' n x = 2 * x * P' n x - n * (n + 1) * P n x := by
  cases n with
  | zero => simp [P', P'', legendreR_zero]
  | succ m =>
    have h0 : (1 - x ^ 2) ≠ 0 := fun h => hx (by linear_combination -h)
    have hp := congrArg derivative (legendreR_derivative_poly m)
    simp only [derivative_mul, derivative_sub, derivative_add, derivative_natCast, derivative_X, derivative_one,
      derivative_X_pow] at hp
    have h := congrArg (Polynomial.eval x) hp
    simp only [eval_sub, eval_mul, eval_natCast, eval_X, eval_add, eval_one, eval_pow, eval_zero, eval_C] at h
    have h1 := P_derivative m x
    have h2 := P_derivative_next m x
    simp only [P, P', P''] at h1 h2 ⊢
    norm_num at h
    apply mul_left_cancel₀ h0
    push_cast
    linear_combination (1 - x ^ 2) * h + (m + 1) * h2 - (m + 1) * x * h1

/-- Parity. -/
theorem P_neg (n : Nat) (x : ℝ) : P n (-x) = (-1) ^ n * P n x := by
  induction n using Nat.strong_induction_on with
  | _ n ih =>
    match n, ih with
    | 0, _ => simp [P_zero]
    | 1, _ => simp [P_one]
    | m + 2, ih =>
      have h1 := P_bonnet m x
      have h2 := P_bonnet m (-x)
      rw [ih (m + 1) (by omega), ih m (by omega)] at h2
      have h0 : ((m : ℝ) + 2) ≠ 0 := by positivity
      apply mul_left_cancel₀ h0
      rw [pow_succ] at h2
      rw [pow_add]
      linear_combination h2 - (-1) ^ m * h1

theorem P'_neg (n : Nat) (x : ℝ) : P' n (-x) = -(-1) ^ n * P' n x := by
  have h1 : HasDerivAt (fun y => P n (-y)) (-P' n (-x)) x := by
    have := (hasDerivAt_P n (-x)).comp x (hasDerivAt_neg x)
    rw [mul_neg_one] at this
    exact this
  have h2 : HasDerivAt (fun y => (-1) ^ n * P n y) ((-1) ^ n * P' n x) x := (hasDerivAt_P n x).const_mul _
  have h3 : (fun y => P n (-y)) = fun y => (-1) ^ n * P n y := funext (P_neg n)
  rw [h3] at h1
  have := h1.unique h2
  linarith

/-- A polynomial and the next one have no common zero. -/
theorem P_no_common (n : Nat) (x : ℝ) : ¬ (P n x = 0 ∧ P (n + 1) x = 0) := by
  induction n with
  | zero => simp [P_zero]
  | succ m ih =>
    rintro ⟨h1, h2⟩
    apply ih
    refine ⟨?_, h1⟩
    have h := P_bonnet m x
    rw [h1, h2] at h
    have h0 : ((m : ℝ) + 1) ≠ 0 := by positivity
    have : ((m : ℝ) + 1) * P m x = 0 := by linarith
    exact (mul_eq_zero.mp this).resolve_left h0

/-- Zeros are simple. -/
theorem P_simple (n : Nat) (x : ℝ) : ¬ (P n x = 0 ∧ P' n x = 0) := by
  rintro ⟨h1, h2⟩
  have h := P_derivative_next n x
  rw [h1, h2] at h
  have h0 : ((n : ℝ) + 1) ≠ 0 := by positivity
  have : ((n : ℝ) + 1) * P (n + 1) x = 0 := by linarith
  exact P_no_common n x ⟨h1, (mul_eq_zero.mp this).resolve_left h0⟩

theorem P_at_one (n : Nat) : P n 1 = 1 := by
  induction n using Nat.strong_induction_on with
  | _ n ih =>
    match n, ih with
    | 0, _ => simp [P_zero]
    | 1, _ => simp [P_one]
    | m + 2, ih =>
      have h1 := P_bonnet m 1
      rw [ih (m + 1) (by omega), ih m (by omega)] at h1
      have h0 : ((m : ℝ) + 2) ≠ 0 := by positivity
      apply mul_left_cancel₀ h0
      linarith

/-- `P_n` at 0 vanishes for odd `n`, its derivative for even `n`. -/
theorem P_zero_odd (n : Nat) (h : n % 2 = 1) : P n 0 = 0 := by
  have := P_neg n 0
  rw [neg_zero, Odd.neg_one_pow (Nat.odd_iff.mpr h)] at this
  linarith

theorem P'_zero_even (n : Nat) (h : n % 2 = 0) : P' n 0 = 0 := by
  have := P'_neg n 0
  rw [neg_zero, Even.neg_one_pow (Nat.even_iff.mpr h)] at this
  linarith

theorem continuous_P (n : Nat) : Continuous (P n) := (legendreR n).continuous
theorem continuous_P' (n : Nat) : Continuous (P' n) := (derivative (legendreR n)).continuous

end Grib.Spec
