import Verif.Spec.File

/-! # Specification: octets of the product definition templates (section 4)

Octet numbers count from 1 at the start of the section, as in the tables of the WMO Manual on Codes (FM 92 GRIB,
templates 4.x).  The manual is not in the repository; the numbers below are the author's reading of it. -/

namespace Grib.Spec

/-- Product definition templates that the crate announces as supported. -/
def ProdTemplates : List Nat :=
  List.range 16 ++ [20] ++ [30, 31, 32, 33, 34, 35] ++ [40, 41, 42, 43, 44, 45, 46, 47, 48, 49] ++ [51, 53, 54] ++
  [55, 56, 57, 58, 59, 60, 61, 62, 63, 67, 68, 70, 71, 72, 73, 76, 77, 78, 79, 80, 81, 82, 83, 84, 85, 86, 87, 88, 91] ++
  [254] ++ [1000, 1001, 1002, 1100, 1101]

/-- Octet of the type of generating process (Code table 4.3). -/
def processOctet (t : Nat) : Option Nat :=
  if t ∈ List.range 16 ++ [20, 30, 31, 32, 33, 34, 35, 51, 60, 61, 86, 87, 88, 91, 1000, 1001, 1002, 1100, 1101] then some 12
  else if t ∈ [40, 41, 42, 43] then some 14                  -- behind the constituent type
  else if t ∈ [76, 77, 78, 79] then some 15                  -- behind constituent type, source/sink
  else if t ∈ [70, 71, 72, 73] then some 17                  -- behind the post-processing fields
  else if t ∈ [55, 56, 59, 62, 63] then some 18              -- behind the tile fields
  else if t ∈ [44, 45, 46, 47, 85] then some 25              -- behind aerosol type and size
  else if t ∈ [82, 83, 84] then some 26                      -- behind aerosol type, source/sink and size
  else if t ∈ [48, 49] then some 36                          -- behind aerosol type, size and wavelength
  else if t ∈ [80, 81] then some 37
  else none

/-- Octet of the unit of the forecast time (Code table 4.4); the forecast time follows it. -/
def timeOctet (t : Nat) : Option Nat :=
  if t ∈ List.range 16 ++ [32, 33, 34, 51, 60, 61, 86, 87, 91, 1000, 1001, 1002, 1100, 1101] then some 18
  else if t ∈ [40, 41, 42, 43] then some 20
  else if t ∈ [76, 77, 78, 79] then some 21
  else if t ∈ [70, 71, 72, 73] then some 23
  else if t ∈ [55, 56, 59, 62, 63] then some 24
  else if t ∈ [44, 45, 46, 47, 85] then some 31
  else if t ∈ [82, 83, 84] then some 32
  else if t = 88 then some 36
  else if t ∈ [48, 49] then some 42
  else if t ∈ [80, 81] then some 43
  else none

/-- Number of octets of the forecast time: 4, but 2 in template 4.44. -/
def timeLength (t : Nat) : Nat := if t = 44 then 2 else 4

/-- First octet of the two fixed surfaces (12 octets: type, scale factor, scaled value, twice). -/
def surfaceOctet (t : Nat) : Option Nat :=
  if t ∈ List.range 16 ++ [51, 60, 61, 86, 87, 91, 1100, 1101] then some 23
  else if t = 88 then some 15
  else if t ∈ [40, 41, 42, 43] then some 25
  else if t ∈ [76, 77, 78, 79] then some 26
  else if t ∈ [70, 71, 72, 73] then some 28
  else if t ∈ [55, 56, 59, 62, 63] then some 29
  else if t = 44 then some 34
  else if t ∈ [45, 46, 47, 85] then some 36
  else if t ∈ [82, 83, 84] then some 37
  else if t ∈ [48, 49] then some 47
  else if t ∈ [80, 81] then some 48
  else none

end Grib.Spec
