import Verif.Prelude

/-! # Model of `src/decoder/stream.rs` -/

namespace Grib.Model

/-- `NBitwiseIterator` (src/decoder/stream.rs:63-69). -/
structure NBit where
  data : List UInt8
  size : Nat
  pos : Nat
  offset : Nat
deriving DecidableEq, Repr

/-- `NBitwiseIterator::new` (src/decoder/stream.rs:72-79). -/
def NBit.new (data : List UInt8) (size : Nat) : NBit := ⟨data, size, 0, 0⟩

/-- `NBitwiseIterator::with_offset` (src/decoder/stream.rs:81-87). -/
def NBit.withOffset (it : NBit) (offset : Nat) : NBit := { it with offset := offset }

/-- The inner `while pos < new_pos` loop of `NBitwiseIterator::next`
(src/decoder/stream.rs:112-116): fold the next `n` octets of `data`, starting at `pos`, into the `u32`
accumulator.  `none` is an out-of-range index.  `<<` on `u32` discards the bits above 32. -/
def NBit.fold (data : List UInt8) : (n pos acc : Nat) → Option Nat
  | 0, _, acc => some acc
  | n + 1, pos, acc =>
    match data[pos]? with
    | none => none
    | some b => NBit.fold data n (pos + 1) (((acc <<< 8) % 2 ^ 32) ||| b.toNat)

/-- `NBitwiseIterator::next` (src/decoder/stream.rs:95-128).
Outer `none`: a panic (index out of range, or `u8 << offset` with `offset ≥ 8`).
Inner `none`: the iterator is exhausted.
Simplification: `pos`/`offset`/`size` additions are unbounded (they stay below `usize::MAX` for any slice
that fits in memory and any `u8`/`u32` width). -/
def NBit.next (it : NBit) : Option (Option Nat × NBit) :=
  let newOffset0 := it.offset + it.size
  let newPos := it.pos + newOffset0 / 8
  let newOffset := newOffset0 % 8
  if it.pos ≥ it.data.length ∨ newPos > it.data.length ∨ (newPos = it.data.length ∧ newOffset > 0) then
    some (none, it)
  else
    match it.data[it.pos]? with
    | none => none
    | some b =>
      if it.offset ≥ 8 then none else
      let val := ((b.toNat <<< it.offset) % 256) >>> it.offset
      let it' : NBit := { it with pos := newPos, offset := newOffset }
      if newPos = it.pos then
        some (some (val >>> (8 - newOffset)), it')
      else
        match NBit.fold it.data (newPos - (it.pos + 1)) (it.pos + 1) val with
        | none => none
        | some v =>
          if newOffset > 0 then
            match it.data[newPos]? with
            | none => none
            | some last =>
              let lastVal := last.toNat >>> (8 - newOffset)
              some (some (((v <<< newOffset) % 2 ^ 32) ||| lastVal), it')
          else
            some (some v, it')

/-- Result of draining an iterator: calling `next` until it returns `None`, at most `fuel` times.
`panic` if a call panics, `diverge` if `fuel` calls all returned an item. -/
inductive Drained (α : Type) where
  | done (xs : List α)
  | panic
  | more (xs : List α)
deriving DecidableEq, Repr

/-- Prepend an item to a drained sequence. -/
def Drained.cons {α : Type} (x : α) : Drained α → Drained α
  | done xs => done (x :: xs)
  | panic => panic
  | more xs => more (x :: xs)

/-- Draining an `NBitwiseIterator` with at most `fuel` calls (`for value in iter`, `.collect()`). -/
def NBit.drain : (fuel : Nat) → NBit → Drained Nat
  | 0, _ => .more []
  | fuel + 1, it =>
    match it.next with
    | none => .panic
    | some (none, _) => .done []
    | some (some v, it') => (NBit.drain fuel it').cons v

/-- A number of calls after which every iterator with `size ≥ 1` is exhausted
(proved in `Lemmas/Bits.lean`). -/
def NBit.enough (it : NBit) : Nat := 8 * it.data.length + 1

/-- All items of an `NBitwiseIterator`. -/
def NBit.toList (it : NBit) : Drained Nat := it.drain it.enough

/-- `.take(n)` followed by `.collect()` on an `NBitwiseIterator`: at most `n` calls; `none` is a panic. -/
def NBit.takeList : (n : Nat) → NBit → Option (List Nat)
  | 0, _ => some []
  | n + 1, it =>
    match it.next with
    | none => none
    | some (none, _) => some []
    | some (some v, it') => (NBit.takeList n it').map (v :: ·)

/-- `BitStream::new(data, unit_size, length).take(length).collect()`
(src/decoder/stream.rs:1-30 with `FixedValueIterator`, lines 32-61): a width of zero gives `length` zeros,
any other width reads the octets.  Simplification: the two call sites (src/decoder/complex.rs:132-157)
always apply `.take` with the same `length`, so only the collected list is modelled. -/
def bitStreamTake (data : List UInt8) (unitSize length : Nat) : Option (List Nat) :=
  if unitSize = 0 then some (List.replicate length 0)
  else NBit.takeList length (NBit.new data unitSize)

end Grib.Model
