import Verif.Model.Sections
import Verif.Model.Float

/-! # Model of the section header types of `src/datatypes/sections.rs` and of `src/datatypes/product_attributes.rs`

Every access to the payload that the code does by indexing is a panic when out of range; the ones it does by
`get` are `none`. -/

namespace Grib.Model

/-- `read_as!(uN, payload, start)` (src/helpers.rs:27-32). -/
def rdAs {ε : Type} (payload : List UInt8) (start len : Nat) : Outcome ε Nat := Outcome.ofOption (readBE? payload start len)

/-- `payload[i]`. -/
def rdIdx {ε : Type} (payload : List UInt8) (i : Nat) : Outcome ε Nat := Outcome.ofOption (payload[i]?.map UInt8.toNat)

/-! ## Section 1 -/

/-- `Identification` (src/datatypes/sections.rs:41-44). -/
structure Identification where
  payload : List UInt8
deriving DecidableEq, Repr

variable {ε : Type}

namespace Identification

/-- `centre_id` (src/datatypes/sections.rs:60-66). -/
def centreId (s : Identification) : Outcome ε Nat := rdAs s.payload 0 2

/-- `subcentre_id` (src/datatypes/sections.rs:68-74). -/
def subcentreId (s : Identification) : Outcome ε Nat := rdAs s.payload 2 2

/-- `master_table_version` (src/datatypes/sections.rs:76-80). -/
def masterTableVersion (s : Identification) : Outcome ε Nat := rdIdx s.payload 4

/-- `local_table_version` (src/datatypes/sections.rs:82-86). -/
def localTableVersion (s : Identification) : Outcome ε Nat := rdIdx s.payload 5

/-- `ref_time_significance` (src/datatypes/sections.rs:88-92). -/
def refTimeSignificance (s : Identification) : Outcome ε Nat := rdIdx s.payload 6

/-- The six numbers `ref_time` passes to `create_date_time` (src/datatypes/sections.rs:94-105).
The calendar check itself is in `Model/Calendar.lean`. -/
def refTimeFields (s : Identification) : Outcome ε (List Nat) := do
  let year ← rdAs s.payload 7 2
  let month ← rdIdx s.payload 9
  let day ← rdIdx s.payload 10
  let hour ← rdIdx s.payload 11
  let minute ← rdIdx s.payload 12
  let second ← rdIdx s.payload 13
  .ok [year, month, day, hour, minute, second]

/-- `prod_status` (src/datatypes/sections.rs:107-112). -/
def prodStatus (s : Identification) : Outcome ε Nat := rdIdx s.payload 14

/-- `data_type` (src/datatypes/sections.rs:114-118). -/
def dataType (s : Identification) : Outcome ε Nat := rdIdx s.payload 15

end Identification

/-! ## Section 3 -/

/-- `GridDefinition` (src/datatypes/sections.rs:155-158). -/
structure GridDefinition where
  payload : List UInt8
deriving DecidableEq, Repr

/-- `num_points` (src/datatypes/sections.rs:174-178). -/
def GridDefinition.numPoints (s : GridDefinition) : Outcome ε Nat := rdAs s.payload 1 4

/-- `grid_tmpl_num` (src/datatypes/sections.rs:180-184). -/
def GridDefinition.gridTmplNum (s : GridDefinition) : Outcome ε Nat := rdAs s.payload 7 2

/-! ## Section 4 -/

/-- `ProdDefinition` (src/datatypes/sections.rs:311-314). -/
structure ProdDefinition where
  payload : List UInt8
deriving DecidableEq, Repr

/-- `SUPPORTED_PROD_DEF_TEMPLATE_NUMBERS` (src/codetables/old.rs:263-267). -/
def supportedProdTemplates : List Nat :=
  [0, 1, 2, 3, 4, 5, 6, 7, 8, 9, 10, 11, 12, 13, 14, 15, 20, 30, 31, 32, 33, 34, 35, 40, 41, 42,
    43, 44, 45, 46, 47, 48, 49, 51, 53, 54, 55, 56, 57, 58, 59, 60, 61, 62, 63, 67, 68, 70, 71, 72,
    73, 76, 77, 78, 79, 80, 81, 82, 83, 84, 85, 86, 87, 88, 91, 254, 1000, 1001, 1002, 1100, 1101]

namespace ProdDefinition

/-- `num_coordinates` (src/datatypes/sections.rs:330-334). -/
def numCoordinates (s : ProdDefinition) : Outcome ε Nat := rdAs s.payload 0 2

/-- `prod_tmpl_num` (src/datatypes/sections.rs:336-340). -/
def prodTmplNum (s : ProdDefinition) : Outcome ε Nat := rdAs s.payload 2 2

/-- `template_supported` (src/datatypes/sections.rs:346-348). -/
def templateSupported (s : ProdDefinition) : Outcome ε Bool := do
  .ok (supportedProdTemplates.contains (← s.prodTmplNum))

/-- `payload.get(START_OF_PROD_TEMPLATE + index).copied()`. -/
def getOctet (s : ProdDefinition) (index : Nat) : Option Nat := s.payload[4 + index]?.map UInt8.toNat

/-- `parameter_category` (src/datatypes/sections.rs:350-358). -/
def parameterCategory (s : ProdDefinition) : Outcome ε (Option Nat) := do
  if ← s.templateSupported then .ok (s.getOctet 0) else .ok none

/-- `parameter_number` (src/datatypes/sections.rs:360-368). -/
def parameterNumber (s : ProdDefinition) : Outcome ε (Option Nat) := do
  if ← s.templateSupported then .ok (s.getOctet 1) else .ok none

/-- A Rust `match` on a number with range arms: the index of the first arm `(lo, hi, index)` containing it. -/
def arm (arms : List (Nat × Nat × Nat)) (t : Nat) : Option Nat :=
  (arms.find? fun a => a.1 ≤ t && t ≤ a.2.1).map fun a => a.2.2

/-- The arms of `generating_process` (src/datatypes/sections.rs:374-399). -/
def generatingProcessArms : List (Nat × Nat × Nat) :=
  [(0, 39, 2), (40, 43, 4), (44, 46, 15), (47, 47, 2), (48, 49, 26), (51, 51, 2), (55, 56, 8), (59, 59, 8), (60, 61, 2),
    (62, 63, 8), (70, 73, 7), (76, 79, 5), (80, 81, 27), (82, 82, 16), (83, 83, 2), (84, 84, 16), (85, 85, 15),
    (86, 91, 2), (254, 254, 2), (1000, 1101, 2)]

/-- `generating_process` (src/datatypes/sections.rs:372-404). -/
def generatingProcess (s : ProdDefinition) : Outcome ε (Option Nat) := do
  if ← s.templateSupported then
    .ok ((arm generatingProcessArms (← s.prodTmplNum)).bind s.getOctet)
  else .ok none

/-- The arms of `forecast_time` (src/datatypes/sections.rs:411-435). -/
def forecastTimeArms : List (Nat × Nat × Nat) :=
  [(0, 15, 8), (32, 34, 8), (40, 43, 10), (44, 47, 21), (48, 49, 32), (51, 51, 8), (55, 56, 14), (59, 59, 14), (60, 61, 8),
    (62, 63, 14), (70, 73, 13), (76, 79, 11), (80, 81, 33), (82, 84, 22), (85, 85, 21), (86, 87, 8), (88, 88, 26),
    (91, 91, 8), (1000, 1101, 8)]

/-- `forecast_time` (src/datatypes/sections.rs:409-445): unit and value (`ForecastTime::from_numbers` is
`ForecastTime.fromNumbers` below).  The slice of the value panics when it is out of range. -/
def forecastTime (s : ProdDefinition) : Outcome ε (Option (Nat × Nat)) := do
  if ← s.templateSupported then
    match arm forecastTimeArms (← s.prodTmplNum) with
    | none => .ok none
    | some i => do
      let time ← rdAs s.payload (4 + i + 1) 4
      .ok ((s.getOctet i).map fun unit => (unit, time))
  else .ok none

/-- The arms of `fixed_surfaces` (src/datatypes/sections.rs:450-474). -/
def fixedSurfacesArms : List (Nat × Nat × Nat) :=
  [(0, 15, 13), (40, 43, 15), (44, 44, 24), (45, 47, 26), (48, 49, 37), (51, 51, 13), (55, 56, 19), (59, 59, 19), (60, 61, 13),
    (62, 63, 19), (70, 73, 18), (76, 79, 16), (80, 81, 38), (82, 84, 27), (85, 85, 26), (86, 87, 13), (88, 88, 5),
    (91, 91, 13), (1100, 1101, 13)]

end ProdDefinition

/-- `FixedSurface` (src/datatypes/product_attributes.rs:132-138). -/
structure FixedSurface where
  surfaceType : Nat
  scaleFactor : Int
  scaledValue : Int
deriving DecidableEq, Repr

namespace ProdDefinition

/-- `read_surface_from` (src/datatypes/sections.rs:484-495).  The slice of the scaled value panics when out of range. -/
def readSurfaceFrom (s : ProdDefinition) (index : Nat) : Outcome ε (Option FixedSurface) := do
  let surfaceType := s.getOctet index
  let scaleFactor := (s.getOctet (index + 1)).map (asGribInt 8)
  let v ← rdAs s.payload (4 + index + 2) 4
  let scaledValue := asGribInt 32 v
  .ok (surfaceType.bind fun t => scaleFactor.map fun f => ⟨t, f, scaledValue⟩)

/-- `fixed_surfaces` (src/datatypes/sections.rs:448-482). -/
def fixedSurfaces (s : ProdDefinition) : Outcome ε (Option (FixedSurface × FixedSurface)) := do
  if ← s.templateSupported then
    match arm fixedSurfacesArms (← s.prodTmplNum) with
    | none => .ok none
    | some i => do
      let first ← s.readSurfaceFrom i
      let second ← s.readSurfaceFrom (i + 6)
      .ok (first.bind fun a => second.map fun b => (a, b))
  else .ok none

end ProdDefinition

namespace FixedSurface

/-- `scale_factor_is_nan` (src/datatypes/product_attributes.rs:205-210). -/
def scaleFactorIsNan (s : FixedSurface) : Bool := s.scaleFactor == -128 + 1

/-- `value_is_nan` (src/datatypes/product_attributes.rs:212-217). -/
def valueIsNan (s : FixedSurface) : Bool := s.scaledValue == -2147483648 + 1

/-- `value` (src/datatypes/product_attributes.rs:149-156), over abstract `f64` operations. -/
def value {F : Type} (ops : FloatOps F) (s : FixedSurface) : F :=
  if s.valueIsNan then ops.nan
  else ops.mul (ops.ofInt s.scaledValue) (ops.powi (ops.ofInt 10) (-s.scaleFactor))

end FixedSurface

/-- `Table4_4` (src/codetables/grib2.rs:3-19). -/
inductive Table4_4 where
  | minute | hour | day | month | year | decade | normal | century | threeHours | sixHours | twelveHours | second
  | missing
deriving DecidableEq, Repr

/-- The discriminants (`IntoPrimitive`). -/
def Table4_4.toNum : Table4_4 → Nat
  | .minute => 0 | .hour => 1 | .day => 2 | .month => 3 | .year => 4 | .decade => 5 | .normal => 6 | .century => 7
  | .threeHours => 10 | .sixHours => 11 | .twelveHours => 12 | .second => 13 | .missing => 255

/-- `Table4_4::try_from(u8)` (derived by `TryFromPrimitive`). -/
def Table4_4.tryFrom (n : Nat) : Option Table4_4 :=
  match n with
  | 0 => some .minute | 1 => some .hour | 2 => some .day | 3 => some .month | 4 => some .year | 5 => some .decade
  | 6 => some .normal | 7 => some .century | 10 => some .threeHours | 11 => some .sixHours | 12 => some .twelveHours
  | 13 => some .second | 255 => some .missing | _ => none

/-- `Table4_4::short_expr` (src/codetables/grib2.rs:21-39). -/
def Table4_4.shortExpr : Table4_4 → Option String
  | .minute => some "m" | .hour => some "h" | .day => some "D" | .month => some "M" | .year => some "Y"
  | .decade => some "10Y" | .normal => some "30Y" | .century => some "C" | .threeHours => some "3h" | .sixHours => some "6h"
  | .twelveHours => some "12h" | .second => some "s" | .missing => none

/-- `Code` (src/codetables/core.rs:3-7). -/
inductive Code (α : Type) where
  | name (a : α)
  | num (n : Nat)
deriving DecidableEq, Repr

/-- `From<Result<Enum, TryFromPrimitiveError<Enum>>> for Code` (src/codetables/core.rs:9-19). -/
def Code.ofTry {α : Type} (n : Nat) : Option α → Code α
  | some a => .name a
  | none => .num n

/-- `ForecastTime` (src/datatypes/product_attributes.rs:87-91). -/
structure ForecastTime where
  unit : Code Table4_4
  value : Nat
deriving DecidableEq, Repr

/-- `ForecastTime::from_numbers` (src/datatypes/product_attributes.rs:98-101). -/
def ForecastTime.fromNumbers (unit value : Nat) : ForecastTime := ⟨Code.ofTry unit (Table4_4.tryFrom unit), value⟩

/-! ## Section 5 -/

/-- `ReprDefinition` (src/datatypes/sections.rs:498-501). -/
structure ReprDefinition where
  payload : List UInt8
deriving DecidableEq, Repr

/-- `num_points` (src/datatypes/sections.rs:517-523). -/
def ReprDefinition.numPoints (s : ReprDefinition) : Outcome ε Nat := rdAs s.payload 0 4

/-- `repr_tmpl_num` (src/datatypes/sections.rs:525-529). -/
def ReprDefinition.reprTmplNum (s : ReprDefinition) : Outcome ε Nat := rdAs s.payload 4 2

/-! ## Parameters -/

/-- `Parameter` (src/datatypes/product_attributes.rs:14-28). -/
structure Parameter where
  discipline : Nat
  centre : Nat
  masterVer : Nat
  localVer : Nat
  category : Nat
  num : Nat
deriving DecidableEq, Repr

/-- `Parameter::as_u32` (src/datatypes/product_attributes.rs:82-84): the summands cannot overflow. -/
def Parameter.asU32 (p : Parameter) : Nat := p.discipline * 2 ^ 16 + p.category * 2 ^ 8 + p.num

/-- `NCEP` (src/codetables/external.rs:5-15). -/
inductive NCEP where
  | pres | prmsl | hgt
deriving DecidableEq, Repr

/-- The discriminants. -/
def NCEP.toNum : NCEP → Nat
  | .pres => 0x000300 | .prmsl => 0x000301 | .hgt => 0x000305

/-- `TryFrom<&Parameter> for NCEP` (src/codetables/external.rs:17-24) with the derived `try_from_primitive`. -/
def NCEP.tryFrom (p : Parameter) : Option NCEP :=
  match p.asU32 with
  | 0x000300 => some .pres | 0x000301 => some .prmsl | 0x000305 => some .hgt | _ => none

/-- `Parameter::is_identical_to` (src/datatypes/product_attributes.rs:73-80) for the only code type the crate has. -/
def Parameter.isIdenticalTo (p : Parameter) (code : NCEP) : Bool :=
  match NCEP.tryFrom p with
  | some v => v == code
  | none => false

end Grib.Model
