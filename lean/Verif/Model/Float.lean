import Verif.Prelude

/-! # Floating-point operations, abstractly

The model is parametric in the floating-point operations the code uses: no law about rounding is assumed, so the
theorems say which operations are applied to which stored numbers.  `FloatOps.exact` is the instance in which they are
exact arithmetic on rationals (with a separate not-a-number). -/

namespace Grib.Model

structure FloatOps (F : Type) where
  /-- `f32::NAN`/`f64::NAN` -/
  nan : F
  /-- `f32::from_be_bytes` (as the unsigned number the four octets form) -/
  ofBits : Nat → F
  /-- conversion from an integer (`as f32`, `f64::from`) -/
  ofInt : Int → F
  add : F → F → F
  sub : F → F → F
  mul : F → F → F
  div : F → F → F
  /-- `powi` -/
  powi : F → Int → F
  /-- `<` -/
  lt : F → F → Bool
  /-- a decimal literal `m·10^e` -/
  lit : Int → Int → F
  /-- `f64::powf(10., f64::from(n))` -/
  powf10 : Nat → F

/-- Value of an IEEE-754 single-precision number given as 32 bits; `none` for infinities and NaNs. -/
def f32Value (bits : Nat) : Option Rat :=
  let sign : Rat := if bits / 2 ^ 31 % 2 = 1 then -1 else 1
  let exp : Nat := bits / 2 ^ 23 % 2 ^ 8
  let frac : Nat := bits % 2 ^ 23
  if exp = 255 then none
  else if exp = 0 then some (sign * (frac : Rat) * (1 / 2 ^ 149))
  else some (sign * ((2 ^ 23 + frac : Nat) : Rat) * (if 150 ≤ exp then 2 ^ (exp - 150) else 1 / 2 ^ (150 - exp)))

/-- Integer powers of a rational. -/
def ratPowi (x : Rat) : Int → Rat
  | .ofNat n => x ^ n
  | .negSucc n => 1 / x ^ (n + 1)

/-- Exact arithmetic; `none` is "not a (finite) number". -/
def FloatOps.exact : FloatOps (Option Rat) where
  nan := none
  ofBits := f32Value
  ofInt i := some i
  add x y := do some ((← x) + (← y))
  sub x y := do some ((← x) - (← y))
  mul x y := do some ((← x) * (← y))
  div x y := do let d ← y; if d = 0 then none else some ((← x) / d)
  powi x n := do some (ratPowi (← x) n)
  lt x y := match x, y with
    | some a, some b => decide (a < b)
    | _, _ => false
  lit m e := some (m * ratPowi 10 e)
  powf10 n := some (10 ^ n)

end Grib.Model
