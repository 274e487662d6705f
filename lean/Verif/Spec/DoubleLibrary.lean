import Verif.Model.Ieee
import Mathlib.Analysis.SpecialFunctions.Trigonometric.Inverse

/-! # Accuracy of the mathematical library (specification) -/

namespace Grib.Spec

open Grib.Model

/-- A floating-point number is finite and has this value. -/
def HasValue (a : Fl) (x : ℝ) : Prop := ∃ q : Rat, a.val = some q ∧ (q : ℝ) = x

/-- On numbers from 0 to 4, the cosine of the library has an error of at most `2^-50` (four units in the last place of
numbers between 1/2 and 1; usual libraries have errors below one). -/
def AccurateCos (cos : Fl → Fl) : Prop :=
  ∀ a x, HasValue a x → 0 ≤ x → x ≤ 4 → ∃ y, HasValue (cos a) y ∧ |y - Real.cos x| ≤ 1 / 2 ^ 50

/-- On numbers from -1 to 1, the arcsine of the library has an error of at most `2^-50`. -/
def AccurateAsin (asin : Fl → Fl) : Prop :=
  ∀ a x, HasValue a x → -1 ≤ x → x ≤ 1 → ∃ y, HasValue (asin a) y ∧ |y - Real.arcsin x| ≤ 1 / 2 ^ 50

end Grib.Spec
