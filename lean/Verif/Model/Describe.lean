import Verif.Model.Context
import Verif.Model.CodeTables

/-!
# Model of the descriptions: `describe()`, `Display` and units of the library

The generated code tables are a parameter (`Constants`), see `Verif.Model.CodeTables`.
-/

namespace Grib.Model
open Grib.Text Grib.Codes

variable {ε : Type}

/-- `Table.lookup(code).to_string()` (src/codetables/old.rs:259-267, 14-22). -/
def tableText (k : Constants) (t : Table) (code : Nat) : Str := display (lookup ((t.data k).getD []) code)

/-- `Display` of a signed integer. -/
def showInt (v : Int) : Str := if v < 0 then '-' :: showNat v.natAbs else showNat v.natAbs

/-- `TemplateInfo::describe` (src/context.rs:71-78); a `TemplateInfo` is a pair. -/
def templateDescribe (k : Constants) (t : Nat × Nat) : Option Str :=
  match t.1 with
  | 3 => some (tableText k .t3_1 t.2)
  | 4 => some (tableText k .t4_0 t.2)
  | 5 => some (tableText k .t5_0 t.2)
  | _ => none

/-- `Display for TemplateInfo` (src/context.rs:81-85). -/
def templateShow (t : Nat × Nat) : Str := showNat t.1 ++ '.' :: showNat t.2

/-- `SubMessageSection::describe` (src/context.rs:698-700). -/
def SubMessageSection.describe (k : Constants) (s : SubMessageSection) : Outcome ε (Option Str) := do
  match ← s.2.getTmplCode with
  | none => .ok none
  | some c => .ok (templateDescribe k c)

/-- `Debug` of `Table4_4` (derived, src/codetables/grib2.rs:3): the name of the variant. -/
def Table4_4.debug : Table4_4 → Str
  | .minute => "Minute".toList | .hour => "Hour".toList | .day => "Day".toList | .month => "Month".toList
  | .year => "Year".toList | .decade => "Decade".toList | .normal => "Normal".toList | .century => "Century".toList
  | .threeHours => "ThreeHours".toList | .sixHours => "SixHours".toList | .twelveHours => "TwelveHours".toList
  | .second => "Second".toList | .missing => "Missing".toList

/-- `ForecastTime::describe` (src/datatypes/product_attributes.rs:103-110): unit and value. -/
def ForecastTime.describe (t : ForecastTime) : Str × Str :=
  (match t.unit with
    | .name u => u.debug
    | .num n => "code ".toList ++ showNat n,
   showNat t.value)

/-- `Display for ForecastTime` (src/datatypes/product_attributes.rs:113-130). -/
def ForecastTime.show (t : ForecastTime) : Str :=
  showNat t.value ++
    match t.unit with
    | .name u =>
      match u.shortExpr with
      | some e => " [".toList ++ e.toList ++ "]".toList
      | none => []
    | .num n => " [unit: ".toList ++ showNat n ++ "]".toList

/-- `FixedSurface::unit` (src/datatypes/product_attributes.rs:165-203). -/
def FixedSurface.unit (s : FixedSurface) : Option String :=
  match s.surfaceType with
  | 11 => some "m" | 12 => some "m" | 13 => some "%" | 18 => some "Pa" | 20 => some "K" | 21 => some "kg m-3"
  | 22 => some "kg m-3" | 23 => some "Bq m-3" | 24 => some "Bq m-3" | 25 => some "dBZ" | 26 => some "m" | 27 => some "m"
  | 30 => some "m" | 100 => some "Pa" | 102 => some "m" | 103 => some "m" | 104 => some "\"sigma\" value" | 106 => some "m"
  | 107 => some "K" | 108 => some "Pa" | 109 => some "K m2 kg-1 s-1" | 114 => some "Numeric" | 117 => some "m"
  | 151 => some "Numeric" | 152 => some "Numeric" | 160 => some "m" | 161 => some "m" | 168 => some "Numeric"
  | 169 => some "kg m-3" | 170 => some "K" | 171 => some "m2 s-1" | _ => none

/-- `FixedSurface::describe` (src/datatypes/product_attributes.rs:219-234). -/
def FixedSurface.describe (k : Constants) (s : FixedSurface) : Str × Str × Str :=
  (tableText k .t4_5 s.surfaceType,
   if s.scaleFactorIsNan then "Missing".toList else showInt s.scaleFactor,
   if s.valueIsNan then "Missing".toList else showInt s.scaledValue)

/-- `Parameter::description` (src/datatypes/product_attributes.rs:48-52). -/
def Parameter.description (k : Constants) (p : Parameter) : Option Str :=
  Codes.description (lookup (((Table.t4_2 p.discipline p.category).data k).getD []) p.num)

/-- The labels of the lines of `SubMessage::describe` (src/context.rs:497-512). -/
def describeLabels : List String :=
  ["Grid:                                   ",
   "  Number of points:                     ",
   "Product:                                ",
   "  Parameter Category:                   ",
   "  Parameter:                            ",
   "  Generating Proceess:                  ",
   "  Forecast Time:                        ",
   "  Forecast Time Unit:                   ",
   "  1st Fixed Surface Type:               ",
   "  1st Scale Factor:                     ",
   "  1st Scaled Value:                     ",
   "  2nd Fixed Surface Type:               ",
   "  2nd Scale Factor:                     ",
   "  2nd Scaled Value:                     ",
   "Data Representation:                    ",
   "  Number of represented values:         "]

/-- The values that `SubMessage::describe` formats, in order (src/context.rs:476-547).  Every accessor may panic on its
own account; they are all evaluated, so that the order does not matter for the outcome. -/
def SubMessage.describeValues (k : Constants) (m : SubMessage) : Outcome ε (List Str) := do
  let prod ← m.prodDef
  let category ← prod.parameterCategory
  let time ← prod.forecastTime
  let time := (time.map fun t => (ForecastTime.fromNumbers t.1 t.2).describe).getD ([], [])
  let surfaces ← prod.fixedSurfaces
  let surfaces := (surfaces.map fun s =>
    let a := s.1.describe k
    let b := s.2.describe k
    (a.1, a.2.1, a.2.2, b.1, b.2.1, b.2.2)).getD ([], [], [], [], [], [])
  let grid ← m.gridDef
  let gridPoints ← grid.numPoints
  let d3 ← SubMessageSection.describe k m.s3
  let d4 ← SubMessageSection.describe k m.s4
  let ind ← m.indicator
  let number ← prod.parameterNumber
  let process ← prod.generatingProcess
  let d5 ← SubMessageSection.describe k m.s5
  let repr ← m.reprDef
  let values ← repr.numPoints
  .ok [d3.getD [],
       showNat gridPoints,
       d4.getD [],
       (category.map fun v => tableText k (.t4_1 ind.discipline) v).getD [],
       (number.bind fun n => category.map fun c => tableText k (.t4_2 ind.discipline c) n).getD [],
       (process.map fun v => tableText k .t4_3 v).getD [],
       time.2,
       time.1,
       surfaces.1,
       surfaces.2.1,
       surfaces.2.2.1,
       surfaces.2.2.2.1,
       surfaces.2.2.2.2.1,
       surfaces.2.2.2.2.2,
       d5.getD [],
       showNat values]

/-- `SubMessage::describe` (src/context.rs:476-547): each label with its value and a newline. -/
def SubMessage.describe (k : Constants) (m : SubMessage) : Outcome ε Str := do
  let vs ← m.describeValues k
  .ok ((describeLabels.zip vs).flatMap fun p => p.1.toList ++ p.2 ++ ['\n'])

end Grib.Model
