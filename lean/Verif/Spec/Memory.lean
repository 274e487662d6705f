import Verif.Model.Sections

/-! # The buffers that reading a section takes -/

namespace Grib.Spec

open Grib.Model

/-- The sizes of the buffers for reading a section that is reported: its contents behind the header for sections 1 to 5,
what follows the bitmap indicator for a section 6 that has more, nothing for sections 0, 7 and 8. -/
def buffersOf (s : SectionInfo) : List Nat :=
  if 1 ≤ s.num ∧ s.num ≤ 5 then [s.size - 5]
  else if s.num = 6 ∧ 6 < s.size then [s.size - 6]
  else []

end Grib.Spec
