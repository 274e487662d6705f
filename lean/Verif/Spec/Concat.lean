import Verif.Spec.File

/-! # Specification: data put behind other data -/

namespace Grib.Spec

open Grib.Model

/-- The end of the last of the sections, or `p` if there are none. -/
def lastEnd (p : Nat) (sects : List SectionInfo) : Nat :=
  match sects.getLast? with
  | none => p
  | some s => s.offset + s.size

/-- No "GRIB" starts in the part of `a` after position `e`, be it cut by the end of `a` and completed by `b`. -/
def NoMagicAcross (a b : List UInt8) (e : Nat) : Prop :=
  ∀ q, e ≤ q → q < a.length → ¬ Octets (a ++ b) q [0x47, 0x52, 0x49, 0x42]

/-- A section, with its index in the file, `k` sections and `d` octets further on. -/
def movedSection (k d : Nat) (x : Nat × SectionInfo) : Nat × SectionInfo :=
  (x.1 + k, { x.2 with offset := x.2.offset + d })

/-- A listed submessage `msgs` messages, `k` sections and `d` octets further on; a submessage that is not the last of its
message refers to the first section of the file in place of an end section. -/
def movedSubmessage (msgs k d : Nat) (first : Nat × SectionInfo) (x : (Nat × Nat) × Nine (Nat × SectionInfo)) :
    (Nat × Nat) × Nine (Nat × SectionInfo) :=
  ((x.1.1 + msgs, x.1.2),
   { s0 := movedSection k d x.2.s0, s1 := movedSection k d x.2.s1, s2 := x.2.s2.map (movedSection k d),
     s3 := movedSection k d x.2.s3, s4 := movedSection k d x.2.s4, s5 := movedSection k d x.2.s5,
     s6 := movedSection k d x.2.s6, s7 := movedSection k d x.2.s7,
     s8 := if x.2.s8.1 = 0 then first else movedSection k d x.2.s8 })

end Grib.Spec
