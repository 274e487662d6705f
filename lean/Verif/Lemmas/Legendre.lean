import Verif.Spec.Legendre
import Mathlib.Tactic.LinearCombination
import Mathlib.Tactic.FieldSimp
import Mathlib.Tactic.Ring

/-! # Recurrences of Legendre polynomials -/

namespace Grib.Spec

open Polynomial

theorem iter_X_mul (n : Nat) (f : ℚ[X]) :
    derivative^[n] (X * f) = X * derivative^[n] f + (n : ℚ[X]) * derivative^[n - 1] f := by
  induction n with
  | zero => simp
  | succ n ih =>
    rw [Function.iterate_succ_apply', ih, Function.iterate_succ_apply']
    cases n with
    | zero => simp; ring
    | succ n =>
      simp only [derivative_add, derivative_mul, derivative_X, derivative_natCast, Nat.add_sub_cancel]
      rw [← Function.iterate_succ_apply' derivative n]
      push_cast
      ring

/-- `dⁿ/dxⁿ (x² - 1)ⁿ` -/
noncomputable def rod (n : Nat) : ℚ[X] := derivative^[n] ((X ^ 2 - 1) ^ n)
/-- `dⁿ/dxⁿ (x² - 1)ⁿ⁺¹` -/
noncomputable def sod (n : Nat) : ℚ[X] := derivative^[n] ((X ^ 2 - 1) ^ (n + 1))

theorem deriv_u (n : Nat) : derivative ((X ^ 2 - 1 : ℚ[X]) ^ (n + 1)) = ((2 * (n + 1) : ℕ) : ℚ[X]) * (X * (X ^ 2 - 1) ^ n) := by
  rw [derivative_pow_succ]
  simp
  ring

theorem derivative_sod (n : Nat) : derivative (sod n) = rod (n + 1) := by
  unfold sod rod
  rw [← Function.iterate_succ_apply' derivative n]

theorem rod_succ (n : Nat) : rod (n + 1) =
    ((2 * (n + 1) : ℕ) : ℚ[X]) * (X * rod n + (n : ℚ[X]) * derivative^[n - 1] ((X ^ 2 - 1) ^ n)) := by
  unfold rod
  rw [Function.iterate_succ_apply, deriv_u, iterate_derivative_natCast_mul, iter_X_mul]

theorem rod_succ_succ (n : Nat) : rod (n + 2) = ((2 * (n + 2) : ℕ) : ℚ[X]) * (X * rod (n + 1) + ((n + 1 : ℕ) : ℚ[X]) * sod n) := by
  rw [rod_succ]; rfl

theorem sod_key (n : Nat) : ((n + 2 : ℕ) : ℚ[X]) * sod n = X * rod (n + 1) - ((2 * (n + 1) : ℕ) : ℚ[X]) * rod n := by
  -- Leibniz on (x² - 1)·(x² - 1)ⁿ
  have h1 : sod n = X * (X * rod n + (n : ℚ[X]) * derivative^[n - 1] ((X ^ 2 - 1) ^ n)) +
      (n : ℚ[X]) * derivative^[n - 1] (X * (X ^ 2 - 1) ^ n) - rod n := by
    unfold sod rod
    rw [show (X ^ 2 - 1 : ℚ[X]) ^ (n + 1) = X * (X * (X ^ 2 - 1) ^ n) - (X ^ 2 - 1) ^ n by ring, iterate_derivative_sub,
      iter_X_mul, iter_X_mul]
  -- derivative of (x² - 1)ⁿ⁺¹, differentiated n - 1 times more
  have h2 : (n : ℚ[X]) * sod n = ((2 * (n + 1) : ℕ) : ℚ[X]) * ((n : ℚ[X]) * derivative^[n - 1] (X * (X ^ 2 - 1) ^ n)) := by
    cases n with
    | zero => simp
    | succ m =>
      unfold sod
      rw [Function.iterate_succ_apply, deriv_u, iterate_derivative_natCast_mul, Nat.add_sub_cancel]
      ring
  have h3 := rod_succ n
  push_cast at h1 h2 h3 ⊢
  linear_combination 2 * ((n : ℚ[X]) + 1) * h1 - h2 - X * h3

theorem rod_bonnet (n : Nat) : rod (n + 2) =
    ((2 * (2 * n + 3) : ℕ) : ℚ[X]) * (X * rod (n + 1)) - ((4 * (n + 1) ^ 2 : ℕ) : ℚ[X]) * rod n := by
  have h1 := rod_succ_succ n
  have h2 := sod_key n
  push_cast at h1 h2 ⊢
  linear_combination h1 + 2 * ((n : ℚ[X]) + 1) * h2

theorem derivative_rod_a (n : Nat) : ((n + 1 : ℕ) : ℚ[X]) * rod (n + 1) =
    X * derivative (rod (n + 1)) - ((2 * (n + 1) : ℕ) : ℚ[X]) * derivative (rod n) := by
  have h := congrArg derivative (sod_key n)
  simp only [derivative_mul, derivative_sub, derivative_natCast, derivative_X, derivative_sod] at h
  push_cast at h ⊢
  linear_combination h

theorem derivative_rod_b (n : Nat) : derivative (rod (n + 1)) =
    ((2 * (n + 1) : ℕ) : ℚ[X]) * (((n + 1 : ℕ) : ℚ[X]) * rod n + X * derivative (rod n)) := by
  cases n with
  | zero =>
    simp [rod, derivative_pow]
    exact map_ofNat C 2
  | succ m =>
    have h := congrArg derivative (rod_succ_succ m)
    simp only [derivative_mul, derivative_add, derivative_natCast, derivative_X, derivative_sod] at h
    rw [h]
    push_cast
    ring

theorem rod_derivative (n : Nat) : (1 - X ^ 2) * derivative (rod (n + 1)) =
    ((n + 1 : ℕ) : ℚ[X]) * (((2 * (n + 1) : ℕ) : ℚ[X]) * rod n - X * rod (n + 1)) := by
  have ha := derivative_rod_a n
  have hb := derivative_rod_b n
  push_cast at ha hb ⊢
  linear_combination hb + X * ha

/-! ## Values -/

noncomputable def legendreAt (n : Nat) (x : ℚ) : ℚ := (legendre n).eval x

theorem legendre_eval (n : Nat) (x : ℚ) : (legendre n).eval x = 1 / (2 ^ n * (n.factorial : ℚ)) * (rod n).eval x := by
  unfold legendre rod
  rw [eval_mul, eval_C]

theorem legendre_zero (x : ℚ) : (legendre 0).eval x = 1 := by
  rw [legendre_eval]; simp [rod]

theorem legendre_one (x : ℚ) : (legendre 1).eval x = x := by
  rw [legendre_eval]; simp [rod]; ring

theorem legendre_bonnet (n : Nat) (x : ℚ) : ((n : ℚ) + 2) * (legendre (n + 2)).eval x =
    (2 * n + 3) * (x * (legendre (n + 1)).eval x) - (n + 1) * (legendre n).eval x := by
  have h := congrArg (Polynomial.eval x) (rod_bonnet n)
  simp only [eval_sub, eval_mul, eval_natCast, eval_X] at h
  rw [legendre_eval, legendre_eval, legendre_eval, h]
  have h0 : ((n.factorial : ℕ) : ℚ) ≠ 0 := by exact_mod_cast n.factorial_ne_zero
  have h1 : ((n : ℚ) + 1) ≠ 0 := by positivity
  have h2 : ((n : ℚ) + 2) ≠ 0 := by positivity
  rw [Nat.factorial_succ, Nat.factorial_succ]
  push_cast
  have h3 : ((n : ℚ) + 1 + 1) ≠ 0 := by positivity
  field_simp
  ring

theorem legendre_derivative (n : Nat) (x : ℚ) : (1 - x ^ 2) * (derivative (legendre (n + 1))).eval x =
    (n + 1) * ((legendre n).eval x - x * (legendre (n + 1)).eval x) := by
  have h := congrArg (Polynomial.eval x) (rod_derivative n)
  simp only [eval_sub, eval_mul, eval_natCast, eval_X, eval_one, eval_pow] at h
  have hd : (derivative (legendre (n + 1))).eval x =
      1 / (2 ^ (n + 1) * ((n + 1).factorial : ℚ)) * (derivative (rod (n + 1))).eval x := by
    unfold legendre rod
    rw [derivative_C_mul, eval_mul, eval_C]
  rw [hd, legendre_eval, legendre_eval]
  have h0 : ((n.factorial : ℕ) : ℚ) ≠ 0 := by exact_mod_cast n.factorial_ne_zero
  have h1 : ((n : ℚ) + 1) ≠ 0 := by positivity
  rw [Nat.factorial_succ]
  push_cast at h ⊢
  field_simp
  linear_combination 2 ^ n * h

end Grib.Spec
