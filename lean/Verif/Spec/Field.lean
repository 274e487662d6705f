import Verif.Spec.Serialize
import Verif.Spec.Complex
import Verif.Spec.Decode
import Verif.Spec.RunLength

/-! # Specification: writing fields

What a producer does: turns a sequence of numbers, some of them missing, into the sections of a GRIB2 message.  Five
ways of packing are described; each of them can hold every sequence of numbers in its range. -/

namespace Grib.Spec

open Grib.Model

/-- A signed number as `n` octets: the top bit is the sign, the rest is the magnitude. -/
def signOctets (n : Nat) (x : Int) : List UInt8 := beBytes n (if x < 0 then 2 ^ (8 * n - 1) + x.natAbs else x.natAbs)

/-- The reference value (as the 32 bits of a float), the binary scale factor and the decimal scale factor. -/
structure Scaling where
  r : Nat
  e : Int
  d : Int
deriving DecidableEq, Repr

/-- Octets 12 to 19 of section 5. -/
def Scaling.octets (s : Scaling) : List UInt8 := beBytes 4 s.r ++ (signOctets 2 s.e ++ signOctets 2 s.d)

structure Scaling.Ok (s : Scaling) : Prop where
  r : s.r < 2 ^ 32
  e : s.e.natAbs < 2 ^ 15
  d : s.d.natAbs < 2 ^ 15

/-- Ways of packing a sequence of numbers. -/
inductive Packing where
  /-- Template 5.0, `n` octets per number, no bitmap: nothing can be missing. -/
  | simple (n : Nat) (xs : List Nat)
  /-- Template 5.0, `n` bits per number, with a bitmap. -/
  | masked (n : Nat) (xs : List (Option Nat))
  /-- Template 5.2, each point a group of its own, primary missing values. -/
  | grouped (xs : List (Option Nat))
  /-- Template 5.3, first-order or (`second`) second-order differences, each point a group of its own, primary missing
  values. -/
  | differenced (second : Bool) (xs : List (Option Int))
  /-- Template 5.200: every point is missing or has one of the numbers of a table (given by its index); runs of points are
  written in `n` bits. -/
  | levels (n : Nat) (table : List Nat) (xs : List (Option Nat))
deriving DecidableEq, Repr

namespace Packing

/-- The numbers at the points. -/
def numbers : Packing → List (Option Int)
  | simple _ xs => xs.map fun x : Nat => some (x : Int)
  | masked _ xs => xs.map (Option.map Int.ofNat)
  | grouped xs => xs.map (Option.map Int.ofNat)
  | differenced _ xs => xs
  | levels _ table xs => xs.map (Option.map fun i : Nat => ((table.getD i 0 : Nat) : Int))

/-- The numbers are in the range of the packing. -/
def Ok : Packing → Prop
  | simple n xs => 1 ≤ n ∧ n ≤ 4 ∧ ∀ x ∈ xs, x < 2 ^ (8 * n)
  | masked n xs => 1 ≤ n ∧ n ≤ 32 ∧ ∀ x, some x ∈ xs → x < 2 ^ n
  | grouped xs => xs ≠ [] ∧ xs.length ≤ 100000000 ∧ ∀ x, some x ∈ xs → x < 2 ^ 30 - 1
  | differenced false xs => xs ≠ [] ∧ xs.length ≤ 100000000 ∧ ∀ x, some x ∈ xs → x.natAbs < 2 ^ 28
  | differenced true xs => xs ≠ [] ∧ xs.length ≤ 100000000 ∧ ∀ x, some x ∈ xs → x.natAbs < 2 ^ 27
  | levels n table xs => 8 ≤ n ∧ n ≤ 15 ∧ table.length + 1 < 2 ^ n ∧ (∀ x ∈ table, x < 2 ^ 16) ∧
      ∀ i, some i ∈ xs → i < table.length

/-- Octets 6 to 21 of section 5: number of numbers encoded, template, scaling, bits per number, a floating-point field. -/
def common (count template : Nat) (s : Scaling) (nbit : Nat) : List UInt8 :=
  beBytes 4 count ++ (beBytes 2 template ++ (s.octets ++ [UInt8.ofNat nbit, 0]))

/-- Octets 22 to 47 of section 5 for groups of one point each, with 30 bits per reference: general splitting, primary
missing values, no substitutes, the number of groups, widths 0 in 0 bits, lengths 1, last length 1, in 0 bits. -/
def oneByOne (count : Nat) : List UInt8 :=
  [1, 1, 0xff, 0xff, 0xff, 0xff, 0xff, 0xff, 0xff, 0xff] ++ (beBytes 4 count ++ [0, 0, 0, 0, 0, 1, 0, 0, 0, 0, 1, 0])

/-- The payload of section 5. -/
def sect5 (s : Scaling) : Packing → List UInt8
  | simple n xs => common xs.length 0 s (8 * n)
  | masked n xs => common (xs.filterMap id).length 0 s n
  | grouped xs => common xs.length 2 s 30 ++ oneByOne xs.length
  | differenced second xs => common xs.length 3 s 30 ++ (oneByOne xs.length ++ [if second then 2 else 1, 4])
  | levels n table xs => beBytes 4 xs.length ++ (beBytes 2 200 ++ (UInt8.ofNat n :: (beBytes 2 table.length ++
      (beBytes 2 table.length ++ (UInt8.ofNat s.d.toNat :: table.flatMap (beBytes 2))))))

/-- The payload of section 6: no bitmap, or one bit for each point. -/
def sect6 : Packing → List UInt8
  | masked _ xs => 0 :: packOctets (xs.map Option.isSome)
  | _ => [255]

/-- Thirty ones: a point without a number. -/
def absent : Nat := 2 ^ 30 - 1

/-- The first numbers present, or 0. -/
def firstPresent (k : Nat) (xs : List (Option Int)) : Int := (xs.filterMap id).getD k 0

/-- What differences are counted from. -/
def base : Int := -2 ^ 29

/-- The first-order differences of the numbers present (`prev` is the number before, if any). -/
def differences1 : (prev : Option Int) → List (Option Int) → List (Option Int)
  | _, [] => []
  | prev, none :: xs => none :: differences1 prev xs
  | none, some x :: xs => some 0 :: differences1 (some x) xs
  | some p, some x :: xs => some (x - p) :: differences1 (some x) xs

/-- The second-order differences of the numbers present (`prev` are the numbers before, latest first). -/
def differences2 : (prev : List Int) → List (Option Int) → List (Option Int)
  | _, [] => []
  | prev, none :: xs => none :: differences2 prev xs
  | p :: q :: _, some x :: xs => some (x - 2 * p + q) :: differences2 [x, p] xs
  | prev, some x :: xs => some 0 :: differences2 (x :: prev) xs

/-- The level of a point: 0 for a missing one, otherwise the place in the table counted from 1. -/
def level (x : Option Nat) : Nat := (x.map (· + 1)).getD 0

/-- The payload of section 7. -/
def sect7 : Packing → List UInt8
  | simple n xs => packInts (8 * n) xs
  | masked n xs => packInts n (xs.filterMap id)
  | grouped xs => packInts 30 (xs.map (·.getD absent))
  | differenced false xs => signOctets 4 (firstPresent 0 xs) ++ (signOctets 4 base ++
      packInts 30 ((differences1 none xs).map fun x => (x.map fun y => (y - base).toNat).getD absent))
  | differenced true xs => signOctets 4 (firstPresent 0 xs) ++ (signOctets 4 (firstPresent 1 xs) ++ (signOctets 4 base ++
      packInts 30 ((differences2 [] xs).map fun x => (x.map fun y => (y - base).toNat).getD absent)))
  | levels n table xs => packInts n (runSymbols table.length (encodeRuns (2 ^ n - 1 - table.length) (xs.map level)))

end Packing

/-- A field: what it is (the payload of section 4), its scaling and its packed numbers. -/
structure Field where
  product : List UInt8
  scaling : Scaling
  packing : Packing
deriving DecidableEq, Repr

/-- Run-length packing has no reference value and no binary scale factor, and its decimal scale factor has one octet (of
which only the non-negative half is used here). -/
def Field.scalingFits (f : Field) : Prop :=
  match f.packing with
  | .levels _ _ _ => f.scaling.r = 0 ∧ f.scaling.e = 0 ∧ 0 ≤ f.scaling.d ∧ f.scaling.d < 128
  | _ => True

structure Field.Ok (points : Nat) (f : Field) : Prop where
  product : 4 ≤ f.product.length ∧ f.product.length + 5 < 2 ^ 32
  scaling : f.scaling.Ok
  fits : f.scalingFits
  packing : f.packing.Ok
  points : f.packing.numbers.length = points
  size : f.packing.sect7.length + 5 < 2 ^ 32

/-- A message with fields on the same grid: section 1, the source of the grid, the number of points, the rest of
section 3. -/
structure FieldMessage where
  discipline : UInt8
  ident : List UInt8
  source : UInt8
  points : Nat
  grid : List UInt8
  first : Field
  rest : List Field
deriving DecidableEq, Repr

def FieldMessage.fields (m : FieldMessage) : List Field := m.first :: m.rest

structure FieldMessage.Ok (m : FieldMessage) : Prop where
  ident : 16 ≤ m.ident.length ∧ m.ident.length + 5 < 2 ^ 32
  grid : 4 ≤ m.grid.length ∧ m.grid.length + 10 < 2 ^ 32
  points : m.points < 2 ^ 32
  fields : ∀ f ∈ m.fields, f.Ok m.points

/-- The sections of a field; only the first field of a message brings the grid. -/
def Field.group (grid : Option (List UInt8)) (f : Field) : Group (List UInt8) :=
  ⟨none, grid, f.product, f.packing.sect5 f.scaling, f.packing.sect6, f.packing.sect7⟩

/-- The sections of a message. -/
def FieldMessage.raw (m : FieldMessage) : RawMessage where
  reserved := (0, 0)
  discipline := m.discipline
  ident := m.ident
  first := m.first.group (some (m.source :: (beBytes 4 m.points ++ m.grid)))
  rest := m.rest.map (Field.group none)

/-- A file: messages, each preceded by a gap. -/
def writeFields (l : List (List UInt8 × FieldMessage)) : List UInt8 := messagesBytes (l.map fun x => (x.1, x.2.raw))

/-- The fields of a file in order: the number of the message, the number of the field in it, the message, the field. -/
def numberedFields (start : Nat) : List FieldMessage → List (Nat × Nat × FieldMessage × Field)
  | [] => []
  | m :: ms => (m.fields.zipIdx.map fun x => (start, x.2, m, x.1)) ++ numberedFields (start + 1) ms

/-- The values of a field: `(R + X·2^E)·10^-D` where there is a number. -/
def Field.values (f : Field) (r : Rat) : List (Option Rat) :=
  f.packing.numbers.map (Option.map (unpacked r f.scaling.e f.scaling.d))

end Grib.Spec
