import Verif.Spec.Decode

/-! # Specification: run-length packing (template 5.200)

A run is a level followed by the digits, least significant first, of its length minus one in base `2^n - 1 - MV`; the
digit `d` is written as the number `MV + 1 + d`. -/

namespace Grib.Spec

structure Run where
  level : Nat
  digits : List Nat
deriving DecidableEq, Repr

/-- The value of digits, least significant first. -/
def valueLE (base : Nat) : List Nat → Nat
  | [] => 0
  | d :: ds => d + base * valueLE base ds

def Run.length (base : Nat) (r : Run) : Nat := 1 + valueLE base r.digits

/-- The levels that runs stand for. -/
def expandRuns (base : Nat) (rs : List Run) : List Nat := rs.flatMap fun r => List.replicate (r.length base) r.level

/-- The numbers a run is written as. -/
def Run.symbols (maxv : Nat) (r : Run) : List Nat := r.level :: r.digits.map (maxv + 1 + ·)

def runSymbols (maxv : Nat) (rs : List Run) : List Nat := rs.flatMap (Run.symbols maxv)

/-- Levels are at most `maxv`, digits are digits. -/
def Run.Ok (maxv base : Nat) (r : Run) : Prop := r.level ≤ maxv ∧ ∀ d ∈ r.digits, d < base

/-! ## An encoder -/

/-- Digits of a number, least significant first, without leading zeros; `fuel` is at least the number of digits. -/
def digitsLE (base : Nat) : (fuel n : Nat) → List Nat
  | 0, _ => []
  | fuel + 1, n => if n = 0 then [] else n % base :: digitsLE base fuel (n / base)

/-- Runs (level, length) of a sequence; maximal ones if `merge`. -/
def groupRuns (merge : Bool) : List Nat → List (Nat × Nat)
  | [] => []
  | x :: xs =>
    match groupRuns merge xs with
    | (y, n) :: rest => if merge ∧ x = y then (y, n + 1) :: rest else (x, 1) :: (y, n) :: rest
    | [] => [(x, 1)]

/-- Run-length encoding: maximal runs.  In base 1 there are no run lengths but 1. -/
def encodeRuns (base : Nat) (levels : List Nat) : List Run :=
  (groupRuns (decide (2 ≤ base)) levels).map fun x => ⟨x.1, digitsLE base x.2 (x.2 - 1)⟩

end Grib.Spec
