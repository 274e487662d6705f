import Verif.Model.Float

/-! # IEEE-754 arithmetic as the code executes it

`f32` and `f64` operations of Rust are IEEE-754 operations rounding to nearest, ties to even.  This is an instance of
`FloatOps` with these operations, on the values themselves (rationals, the negative zero, infinities, one NaN).  The
operations whose precision Rust leaves open (`powi`, `powf`) stay parameters; `powiLoop` is the usual implementation
(compiler-rt `__powisf2`). -/

namespace Grib.Model

/-- A binary format: number of significant bits, exponent of the smallest positive number, and the exponent from which
on numbers overflow. -/
structure Fmt where
  prec : Nat
  emin : Int
  top : Int
deriving DecidableEq, Repr

/-- `f32` -/
def Fmt.single : Fmt := ⟨24, -149, 128⟩

/-- `f64` -/
def Fmt.double : Fmt := ⟨53, -1074, 1024⟩

/-- Floating-point data; `fin 0` is the positive zero. -/
inductive Fl where
  | nan
  | inf (neg : Bool)
  | negZero
  | fin (v : Rat)
deriving DecidableEq, Repr

/-- Powers of two. -/
def pow2 : Int → Rat
  | .ofNat n => 2 ^ n
  | .negSucc n => 1 / 2 ^ (n + 1)

/-- The exponent `e` with `2^e ≤ |x| < 2^(e+1)` (for `x ≠ 0`). -/
def ilog2 (x : Rat) : Int :=
  let e : Int := (x.num.natAbs.log2 : Int) - (x.den.log2 : Int)
  if x.num.natAbs * (if 0 ≤ e then 1 else 2 ^ (-e).toNat) < x.den * (if 0 ≤ e then 2 ^ e.toNat else 1) then e - 1 else e

/-- Exponent of the last place of `x`. -/
def Fmt.ulp (f : Fmt) (x : Rat) : Int := max (ilog2 x - (f.prec - 1)) f.emin

/-- Nearest integer, ties to even. -/
def nearestEven (q : Rat) : Int :=
  let r := q - q.floor
  if r < 1 / 2 then q.floor
  else if 1 / 2 < r then q.floor + 1
  else if q.floor % 2 = 0 then q.floor else q.floor + 1

/-- Rounding to a multiple of the last place, the exponent being unbounded above. -/
def Fmt.round (f : Fmt) (x : Rat) : Rat := if x = 0 then 0 else nearestEven (x / pow2 (f.ulp x)) * pow2 (f.ulp x)

/-- The result of an operation whose exact result is `x`; `neg` is the sign of a zero result. -/
def Fmt.ofRat (f : Fmt) (neg : Bool) (x : Rat) : Fl :=
  let r := f.round x
  if pow2 f.top ≤ r then .inf false
  else if r ≤ -pow2 f.top then .inf true
  else if r = 0 then (if neg then .negZero else .fin 0)
  else .fin r

def Fl.isNeg : Fl → Bool
  | .nan => false
  | .inf s => s
  | .negZero => true
  | .fin v => decide (v < 0)

/-- The number, if finite. -/
def Fl.val : Fl → Option Rat
  | .nan => none
  | .inf _ => none
  | .negZero => some 0
  | .fin v => some v

def Fl.neg : Fl → Fl
  | .nan => .nan
  | .inf s => .inf !s
  | .negZero => .fin 0
  | .fin v => if v = 0 then .negZero else .fin (-v)

def Fmt.add (f : Fmt) (a b : Fl) : Fl :=
  match a, b with
  | .nan, _ => .nan
  | _, .nan => .nan
  | .inf s, .inf t => if s = t then .inf s else .nan
  | .inf s, _ => .inf s
  | _, .inf t => .inf t
  | .negZero, .negZero => .negZero
  | .negZero, .fin w => f.ofRat false (0 + w)
  | .fin v, .negZero => f.ofRat false (v + 0)
  | .fin v, .fin w => f.ofRat false (v + w)

def Fmt.mul (f : Fmt) (a b : Fl) : Fl :=
  let s := xor a.isNeg b.isNeg
  match a, b with
  | .nan, _ => .nan
  | _, .nan => .nan
  | .inf _, .inf _ => .inf s
  | .inf _, y => if y.val = some 0 then .nan else .inf s
  | x, .inf _ => if x.val = some 0 then .nan else .inf s
  | .negZero, _ => f.ofRat s 0
  | .fin _, .negZero => f.ofRat s 0
  | .fin v, .fin w => f.ofRat s (v * w)

def Fmt.div (f : Fmt) (a b : Fl) : Fl :=
  let s := xor a.isNeg b.isNeg
  match a, b with
  | .nan, _ => .nan
  | _, .nan => .nan
  | .inf _, .inf _ => .nan
  | .inf _, _ => .inf s
  | _, .inf _ => f.ofRat s 0
  | .negZero, y => if y.val = some 0 then .nan else f.ofRat s 0
  | .fin v, .negZero => if v = 0 then .nan else .inf s
  | .fin v, .fin w => if w = 0 then (if v = 0 then .nan else .inf s) else f.ofRat s (v / w)

/-- `<`: never holds with a NaN. -/
def Fl.lt : Fl → Fl → Bool
  | .nan, _ => false
  | _, .nan => false
  | .inf s, .inf t => s && !t
  | .inf s, _ => s
  | _, .inf t => !t
  | .negZero, .negZero => false
  | .negZero, .fin w => decide (0 < w)
  | .fin v, .negZero => decide (v < 0)
  | .fin v, .fin w => decide (v < w)

/-- The number with these 32 bits (`f32::from_be_bytes`). -/
def Fl.ofBits32 (bits : Nat) : Fl :=
  match f32Value bits with
  | some v => if v = 0 ∧ bits / 2 ^ 31 % 2 = 1 then .negZero else .fin v
  | none => if bits % 2 ^ 23 = 0 then .inf (bits / 2 ^ 31 % 2 = 1) else .nan

/-- IEEE arithmetic of a format, given implementations of the powers. -/
def FloatOps.ieee (f : Fmt) (powi : Fl → Int → Fl) (powf10 : Nat → Fl) : FloatOps Fl where
  nan := .nan
  ofBits := Fl.ofBits32
  ofInt i := f.ofRat false i
  add := f.add
  sub a b := f.add a b.neg
  mul := f.mul
  div := f.div
  powi := powi
  lt := Fl.lt
  lit m e := f.ofRat (m < 0) (m * ratPowi 10 e)
  powf10 := powf10

/-- The loop of `__powisf2`/`__powidf2`: `b` is halved until it is zero; an `i32` needs at most 32 rounds. -/
def powiLoop (f : Fmt) : (fuel : Nat) → (r a : Fl) → (b : Nat) → Fl
  | 0, r, _, _ => r
  | fuel + 1, r, a, b =>
    let r := if b % 2 = 1 then f.mul r a else r
    if b / 2 = 0 then r else powiLoop f fuel r (f.mul a a) (b / 2)

/-- `powi` as compiler-rt implements it. -/
def compilerRtPowi (f : Fmt) (x : Fl) (n : Int) : Fl :=
  let r := powiLoop f 32 (.fin 1) x n.natAbs
  if n < 0 then f.div (.fin 1) r else r

end Grib.Model
