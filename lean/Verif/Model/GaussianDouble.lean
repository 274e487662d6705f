import Verif.Model.Ieee
import Verif.Model.Grid

/-! # What the computation of Gaussian latitudes uses of double precision

`f64::cos` and `f64::asin` are functions of the platform's mathematical library and stay parameters. -/

namespace Grib.Model

/-- `f64::abs`. -/
def Fl.abs : Fl → Fl
  | .nan => .nan
  | .inf _ => .inf false
  | .negZero => .fin 0
  | .fin v => .fin (if v < 0 then -v else v)

/-- `as f32` of an `f64`: rounding to nearest, ties to even (src/grid/gaussian.rs:73). -/
def Fl.toSingle : Fl → Fl
  | .fin v => Fmt.single.ofRat (v < 0) v
  | a => a

/-- `std::f64::consts::PI` (src/grid/gaussian.rs:160). -/
def piDouble : Fl := .fin (884279719003555 / 281474976710656)

/-- The operations used by `src/grid/gaussian.rs:114-206` in double precision: `f64::EPSILON` is `2^-52` (line 195), and
`to_degrees` (line 116) multiplies with `180 / PI`, computed in double precision. -/
def doubleGauss (powi : Fl → Int → Fl) (powf10 : Nat → Fl) (cos asin : Fl → Fl) : GaussOps Fl Fl where
  ops := FloatOps.ieee .double powi powf10
  pi := piDouble
  cos := cos
  asin := asin
  toDegrees x := Fmt.double.mul x (Fmt.double.div (.fin 180) piDouble)
  small x := Fl.lt x.abs (.fin (1 / 2 ^ 52))
  toF32 := Fl.toSingle

end Grib.Model
