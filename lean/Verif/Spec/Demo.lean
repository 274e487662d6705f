import Verif.Spec.Float
import Verif.Spec.Grid

/-! # What the demo is meant to show (specification) -/

namespace Grib.Spec

/-- The classes of the palette: from how many degrees Celsius (exclusive) on they begin, and their colours. -/
def temperatureClasses : List (Int × List UInt8) :=
  [(35, [180, 0, 104, 255]), (30, [255, 40, 0, 255]), (25, [255, 153, 0, 255]), (20, [250, 245, 0, 255]),
    (15, [255, 255, 150, 255]), (10, [255, 255, 240, 255]), (5, [185, 235, 255, 255]), (0, [0, 150, 255, 255]),
    (-5, [0, 65, 255, 255])]

/-- The colour of the lowest class. -/
def coldest : List UInt8 := [0, 32, 128, 255]

/-- The colour of a temperature of `kelvin`: that of the highest class that begins below it; 0 °C is 273.15 K. -/
def temperatureColour (kelvin : Rat) : List UInt8 :=
  ((temperatureClasses.find? fun c => decide ((c.1 : Rat) + 27315 / 100 < kelvin)).map (·.2)).getD coldest

end Grib.Spec
