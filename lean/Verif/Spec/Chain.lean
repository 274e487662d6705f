import Verif.Spec.File

/-! # Section headers that follow each other

Where the headers of sections stand if one goes by the lengths the sections state. -/

namespace Grib.Spec

/-- A section header may be expected at this position: it follows an indicator section ("GRIB", 16 octets), or a section 1 to 7
that states a length of 5 octets or more and has its header at such a position. -/
inductive HeaderAt (data : List UInt8) : Nat → Prop
  | first (q : Nat) : MagicAt data q → HeaderAt data (q + 16)
  | next (p : Nat) : HeaderAt data p → p + 5 ≤ data.length → 1 ≤ octet data (p + 4) → octet data (p + 4) ≤ 7 →
      5 ≤ number data p 4 → HeaderAt data (p + number data p 4)

end Grib.Spec
