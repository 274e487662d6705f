import Verif.Prelude

/-! # Model of `src/helpers.rs` -/

namespace Grib.Model

/-- `u{w}::as_grib_int` (src/helpers.rs:5-19).  `leading_zeros() == 0` is "the top bit is set";
`self << 1 >> 1` drops the top bit (the shift of a `w`-bit value loses it).
The negation cannot overflow because the magnitude is below `2^(w-1)`.
Simplification: the machine integer is a `Nat`, intended `x < 2^w`. -/
def asGribInt (w : Nat) (x : Nat) : Int :=
  if 2 ^ (w - 1) ≤ x then
    -(((x * 2 % 2 ^ w) / 2 : Nat) : Int)
  else
    (x : Int)

/-- `grib_int_from_bytes` (src/helpers.rs:35-56).  `none` is `unimplemented!()` (a panic), reached for
every length other than 1 to 4. The three-octet form is a separate computation, as in the code. -/
def gribIntFromBytes (bytes : List UInt8) : Option Int :=
  match bytes with
  | [a] => some (asGribInt 8 a.toNat)
  | [a, b] => some (asGribInt 16 (be [a, b]))
  | [a, b, c] =>
    let positive := a.toNat < 128                    -- first.leading_zeros() != 0
    let rest : Int := be [b, c]
    let abs : Int := ((a.toNat * 2 % 256) / 2 : Nat) * 0x10000 + rest
    some (if positive then abs else -abs)
  | [a, b, c, d] => some (asGribInt 32 (be [a, b, c, d]))
  | _ => none

end Grib.Model
