/-! # Specification: bit strings

Written independently of the model: an octet string is the list of its bits, most significant first. -/

namespace Grib.Spec

/-- Unsigned value of a bit list, most significant bit first. -/
def ofBits : List Bool → Nat
  | [] => 0
  | b :: bs => (if b then 2 ^ bs.length else 0) + ofBits bs

/-- The eight bits of an octet, most significant first. -/
def octetBits (b : UInt8) : List Bool :=
  (List.range 8).map fun i => b.toNat.testBit (7 - i)

/-- The bits of an octet string. -/
def bits (data : List UInt8) : List Bool := data.flatMap octetBits

/-- Bits `[start, start+n)` of an octet string, as an unsigned number. -/
def bitField (data : List UInt8) (start n : Nat) : Nat :=
  ofBits (((bits data).drop start).take n)

/-- The `n`-bit representation of `x`, most significant bit first. -/
def toBits (n x : Nat) : List Bool := (List.range n).map fun i => x.testBit (n - 1 - i)

/-- Pack a bit list into octets, padding the last octet with zeros. -/
def packOctets (bs : List Bool) : List UInt8 :=
  (List.range ((bs.length + 7) / 8)).map fun i =>
    UInt8.ofNat (ofBits ((List.range 8).map fun j => bs.getD (8 * i + j) false))

/-- Concatenate `n`-bit representations. -/
def packInts (n : Nat) (xs : List Nat) : List UInt8 :=
  packOctets (xs.flatMap (toBits n))

/-- Sign-and-magnitude meaning of an octet string: top bit is the sign, the rest is the magnitude. -/
def signMagnitude (data : List UInt8) : Int :=
  match bits data with
  | [] => 0
  | s :: mag => if s then -(ofBits mag : Int) else (ofBits mag : Int)

end Grib.Spec
