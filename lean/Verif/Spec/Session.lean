import Verif.Model.Session

/-! # Specification of iterators over submessages -/

namespace Grib.Spec

open Grib.Model

/-! ## Specification: cursors into the list of all submessages -/

/-- Cursors (one per iterator, counted from the first submessage) and whether a submessage is kept. -/
structure Cursors where
  cursors : List Nat
  kept : Bool

/-- One operation, given the list of all submessages. -/
def Cursors.step (all : List ((Nat × Nat) × SubMessage)) (s : Cursors) : IterOp → IterRes × Cursors
  | .iter => (.done, { s with cursors := s.cursors ++ [0] })
  | .copy i =>
    match s.cursors[i]? with
    | none => (.noSuchIterator, s)
    | some c => (.done, { s with cursors := s.cursors ++ [c] })
  | .next i =>
    match s.cursors[i]? with
    | none => (.noSuchIterator, s)
    | some c =>
      if c < all.length then
        (if s.kept then .panic else .item all[c]?, ⟨s.cursors.set i (c + 1), true⟩)
      else (.item none, s)
  | .nth i n =>
    match s.cursors[i]? with
    | none => (.noSuchIterator, s)
    | some _ =>
      if n < all.length then
        (if s.kept then .panic else .item all[n]?, ⟨s.cursors.set i (n + 1), true⟩)
      else (.item none, { s with cursors := s.cursors.set i n })
  | .sizeHint i =>
    match s.cursors[i]? with
    | none => (.noSuchIterator, s)
    | some c => (if c ≤ all.length then .hint (all.length - c) else .panic, s)
  | .drop => (.done, { s with kept := false })

/-- A whole program: what it observes, and its last state. -/
def Cursors.run (all : List ((Nat × Nat) × SubMessage)) (s : Cursors) : List IterOp → List IterRes × Cursors
  | [] => ([], s)
  | op :: ops =>
    let (r, s') := s.step all op
    let (rs, s'') := s'.run all ops
    (r :: rs, s'')

end Grib.Spec
