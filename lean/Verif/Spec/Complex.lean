import Verif.Spec.Decode
import Verif.Model.Decoder

/-! # Specification: complex packing (templates 5.2 and 5.3, 7.2 and 7.3)

Section 7 (its octets after the header are `data`) holds, from octet `start` on, the group references (`nbit` bits each),
the coded group widths, the coded group lengths, each block padded to octets, and then the numbers of the groups,
without padding between groups.  `ComplexParam` (the fields of section 5) and `DecodedValue` are shared with the model. -/

namespace Grib.Spec

open Grib.Model (ComplexParam DecodedValue)

/-- Everything that determines the layout. -/
structure Layout where
  p : ComplexParam
  nbit : Nat
  start : Nat
  data : List UInt8

namespace Layout

/-- Octets for `n` bits. -/
def octets (n : Nat) : Nat := (n + 7) / 8

variable (l : Layout)

/-- Octet at which the widths start. -/
def widthsAt : Nat := l.start + octets (l.p.ngroup * l.nbit)

/-- Octet at which the lengths start. -/
def lensAt : Nat := l.widthsAt + octets (l.p.ngroup * l.p.widthNbit)

/-- Octet at which the numbers of the groups start. -/
def dataAt : Nat := l.lensAt + octets (l.p.ngroup * l.p.lenNbit)

/-- The reference of group `g`. -/
def ref (g : Nat) : Nat := bitField l.data (8 * l.start + g * l.nbit) l.nbit

/-- The width of group `g`. -/
def width (g : Nat) : Nat := l.p.widthRef + bitField l.data (8 * l.widthsAt + g * l.p.widthNbit) l.p.widthNbit

/-- The length of group `g`: stated explicitly for the last one. -/
def len (g : Nat) : Nat :=
  if g + 1 = l.p.ngroup then l.p.lenLast
  else l.p.lenRef + l.p.lenInc * bitField l.data (8 * l.lensAt + g * l.p.lenNbit) l.p.lenNbit

/-- Bit at which the numbers of group `g` start: after those of the groups before it. -/
def groupAt (g : Nat) : Nat := 8 * l.dataAt + ((List.range g).map fun h => l.width h * l.len h).sum

/-- The number `k` of group `g`. -/
def stored (g k : Nat) : Nat := bitField l.data (l.groupAt g + k * l.width g) (l.width g)

/-- Missing-value management: all ones, or all ones but the last bit, in `w` bits. -/
def missing (mvm w x : Nat) : Option DecodedValue :=
  if 1 ≤ mvm ∧ x + 1 = 2 ^ w then some .missing1
  else if mvm = 2 ∧ x + 2 = 2 ^ w then some .missing2
  else none

/-- Value `k` of group `g`: a group of width 0 is constant (and missing if its reference is), otherwise the number stored
decides; `zMin` is the overall minimum of the differences (0 without spatial differencing). -/
def value (zMin : Int) (g k : Nat) : DecodedValue :=
  if l.width g = 0 then (missing l.p.missing l.nbit (l.ref g)).getD (.normal (l.ref g + zMin))
  else (missing l.p.missing (l.width g) (l.stored g k)).getD (.normal (l.stored g k + l.ref g + zMin))

/-- All values: group by group. -/
def values (zMin : Int) : List DecodedValue :=
  (List.range l.p.ngroup).flatMap fun g => (List.range (l.len g)).map fun k => l.value zMin g k

/-- Sizes are consistent: the blocks and the numbers are inside the data, nothing leaves the machine integers. -/
structure Consistent (zMin : Int) : Prop where
  groups : 1 ≤ l.p.ngroup
  nbit : l.nbit ≤ 32
  widthNbit : l.p.widthNbit ≤ 32
  lenNbit : l.p.lenNbit ≤ 32
  refsBits : l.p.ngroup * l.nbit + 7 < 2 ^ 32
  widthsBits : l.p.ngroup * l.p.widthNbit + 7 < 2 ^ 32
  lensBits : l.p.ngroup * l.p.lenNbit + 7 < 2 ^ 32
  whole : l.groupAt l.p.ngroup ≤ 8 * l.data.length
  refs : ∀ g < l.p.ngroup, l.ref g < 2 ^ 31
  widths : ∀ g < l.p.ngroup, l.width g < 32
  lens : ∀ g < l.p.ngroup, l.len g < 2 ^ 32
  constant : ∀ g < l.p.ngroup, l.width g = 0 → l.nbit ≤ 30
  range : ∀ g < l.p.ngroup, -2 ^ 31 ≤ l.ref g + zMin ∧ l.ref g + 2 ^ l.width g ≤ (2 : Int) ^ 31 ∧
    l.ref g + zMin + 2 ^ l.width g ≤ (2 : Int) ^ 31

end Layout

/-! ## Packing -/

/-- A group as an encoder makes it: its reference, its width, the code its length is stored as, and its numbers. -/
structure PGroup where
  ref : Nat
  width : Nat
  lenCode : Nat
  nums : List Nat
deriving DecidableEq, Repr

/-- The values a group stands for. -/
def PGroup.values (mvm nbit : Nat) (zMin : Int) (g : PGroup) : List DecodedValue :=
  g.nums.map fun x =>
    if g.width = 0 then (Layout.missing mvm nbit g.ref).getD (.normal (g.ref + zMin))
    else (Layout.missing mvm g.width x).getD (.normal (x + g.ref + zMin))

/-- Packing of groups: references, widths, lengths, each block padded to octets; then all numbers. -/
def encodeGroups (p : ComplexParam) (nbit : Nat) (gs : List PGroup) : List UInt8 :=
  packInts nbit (gs.map (·.ref)) ++ packInts p.widthNbit (gs.map fun g => g.width - p.widthRef) ++
    packInts p.lenNbit (gs.map (·.lenCode)) ++ packOctets (gs.flatMap fun g => g.nums.flatMap (toBits g.width))

/-- The groups can be packed with these parameters, and nothing leaves the machine integers. -/
structure Packable (p : ComplexParam) (nbit : Nat) (zMin : Int) (gs : List PGroup) : Prop where
  count : p.ngroup = gs.length
  groups : 1 ≤ gs.length
  refNbit : nbit ≤ 32
  widthNbit : p.widthNbit ≤ 32
  lenNbit : p.lenNbit ≤ 32
  refsBits : p.ngroup * nbit + 7 < 2 ^ 32
  widthsBits : p.ngroup * p.widthNbit + 7 < 2 ^ 32
  lensBits : p.ngroup * p.lenNbit + 7 < 2 ^ 32
  refs : ∀ g ∈ gs, g.ref < 2 ^ nbit ∧ g.ref < 2 ^ 31
  widths : ∀ g ∈ gs, p.widthRef ≤ g.width ∧ g.width - p.widthRef < 2 ^ p.widthNbit ∧ g.width < 32
  codes : ∀ g ∈ gs, g.lenCode < 2 ^ p.lenNbit
  nums : ∀ g ∈ gs, (∀ x ∈ g.nums, x < 2 ^ g.width) ∧ g.nums.length < 2 ^ 32
  lens : ∀ g ∈ gs.dropLast, g.nums.length = p.lenRef + p.lenInc * g.lenCode
  lenLast : ∀ g, gs.getLast? = some g → g.nums.length = p.lenLast
  constant : ∀ g ∈ gs, g.width = 0 → nbit ≤ 30
  range : ∀ g ∈ gs, -2 ^ 31 ≤ g.ref + zMin ∧ g.ref + 2 ^ g.width ≤ (2 : Int) ^ 31 ∧ g.ref + zMin + 2 ^ g.width ≤ (2 : Int) ^ 31

/-! ## Spatial differencing -/

/-- The values that are not missing, in order. -/
def normals (xs : List DecodedValue) : List Int :=
  xs.filterMap fun
    | .normal x => some x
    | _ => none

/-- First-order differences over the points that are not missing: each is replaced by its difference from the previous
one (`prev`); what stands for the first one does not matter (`fill`).  Missing points stay. -/
def diff1 (fill : Int) : (prev : Option Int) → List DecodedValue → List DecodedValue
  | _, [] => []
  | none, .normal x :: xs => .normal fill :: diff1 fill (some x) xs
  | some p, .normal x :: xs => .normal (x - p) :: diff1 fill (some x) xs
  | prev, m :: xs => m :: diff1 fill prev xs

/-- Second-order differences, `x_k - 2 x_(k-1) + x_(k-2)`; what stands for the first two does not matter. -/
def diff2 (fill fill' : Int) : (prev : List Int) → List DecodedValue → List DecodedValue
  | _, [] => []
  | [], .normal x :: xs => .normal fill :: diff2 fill fill' [x] xs
  | [p], .normal x :: xs => .normal fill' :: diff2 fill fill' [x, p] xs
  | p :: q :: _, .normal x :: xs => .normal (x - 2 * p + q) :: diff2 fill fill' [x, p] xs
  | prev, m :: xs => m :: diff2 fill fill' prev xs

end Grib.Spec
