import Verif.Spec.Decode

/-! # What scanning order and grid coordinates mean (specification) -/

namespace Grib.Spec

/-- Bit `b` (1 is the most significant) of a flag octet, as the WMO flag tables number them. -/
def flag (octet b : Nat) : Bool := octet / 2 ^ (8 - b) % 2 == 1

/-- Flag table 3.4, bit 1: points of the first row or column scan in the `-i` direction. -/
def negativeI (mode : Nat) : Bool := flag mode 1
/-- Bit 2: points of the first row or column scan in the `+j` direction. -/
def positiveJ (mode : Nat) : Bool := flag mode 2
/-- Bit 3: adjacent points in the `j` direction are consecutive (otherwise in the `i` direction). -/
def jConsecutive (mode : Nat) : Bool := flag mode 3
/-- Bit 4: adjacent rows scan in the opposite direction. -/
def alternating (mode : Nat) : Bool := flag mode 4

/-- Position in a row or column of `len` points that is the `c`-th one of line number `line`. -/
def along (mode len line c : Nat) : Nat := if alternating mode ∧ line % 2 = 1 then len - 1 - c else c

/-- The `k`-th grid point `(i, j)` in scanning order. -/
def visit (ni nj mode k : Nat) : Nat × Nat :=
  if jConsecutive mode then (k / nj, along mode nj (k / nj) (k % nj))
  else (along mode ni (k / ni) (k % ni), k / ni)

end Grib.Spec
