import Verif.Spec.File

/-! # Specification: packed data

A section is given by its payload, the octets from octet 6 on; octets are counted from 1 at the start of the section, as
in the WMO manual on codes. -/

namespace Grib.Spec

/-- The number in octets `first` to `last` of a section with this payload. -/
def sectNumber (payload : List UInt8) (first last : Nat) : Nat := number payload (first - 6) (last + 1 - first)

/-- The signed (sign and magnitude) number in octets `first` to `last` of a section with this payload. -/
def sectSigned (payload : List UInt8) (first last : Nat) : Int :=
  signMagnitude ((payload.drop (first - 6)).take (last + 1 - first))

/-- Integer powers of a rational. -/
def zpow (x : Rat) (n : Int) : Rat := if 0 ≤ n then x ^ n.toNat else 1 / x ^ (-n).toNat

/-- Regulation 92.9.4: `(R + X·2^E)·10^-D`. -/
def unpacked (r : Rat) (e d : Int) (x : Int) : Rat := (r + x * zpow 2 e) * zpow 10 (-d)

/-- Distribute values over points: a point whose bit is 0 has no value, the others take the values in order.
`none` when there are too few values. -/
def distribute {α : Type} : List Bool → List α → Option (List (Option α))
  | [], _ => some []
  | false :: bs, vs => (distribute bs vs).map (none :: ·)
  | true :: _, [] => none
  | true :: bs, v :: vs => (distribute bs vs).map (some v :: ·)

end Grib.Spec
