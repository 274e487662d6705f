import Verif.Model.Ieee
import Verif.Spec.Decode
import Mathlib.Algebra.Order.Field.Power
import Mathlib.Algebra.Order.Ring.Rat

/-! # Specification: order and closeness of floating-point numbers -/

namespace Grib.Spec

open Grib.Model

/-- Both are numbers (possibly infinite) and the second is not less than the first. -/
def NotAbove (a b : Fl) : Prop := a ≠ .nan ∧ b ≠ .nan ∧ Fl.lt b a = false

instance (a b : Fl) : Decidable (NotAbove a b) := inferInstanceAs (Decidable (_ ∧ _ ∧ _))

/-- `a` is finite and its value differs from `x` by a factor within `1 ± d` (`d` relative error). -/
def RelClose (a : Fl) (x d : Rat) : Prop := ∃ y, a.val = some y ∧ |y - x| ≤ d * |x|

/-- The datum of the IEEE-754 binary32 format with sign bit `s`, exponent field `e` and fraction field `m`. -/
def binary32 (s : Bool) (e m : Nat) : Fl :=
  if e = 255 then (if m = 0 then .inf s else .nan)
  else if e = 0 ∧ m = 0 then (if s then .negZero else .fin 0)
  else .fin ((if s then -1 else 1) * (if e = 0 then m * zpow 2 (-149) else (2 ^ 23 + m) * zpow 2 (e - 150)))

end Grib.Spec
