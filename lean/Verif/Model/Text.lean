import Verif.Prelude

/-!
# Text: the parts of `std` and `regex` that the table generators and the
command line use

Strings are lists of characters (Rust: UTF-8; every function used here acts on
characters or on ASCII octets, for which the two views agree).
-/

namespace Grib

/-- A Rust `String`/`&str`. -/
abbrev Str := List Char

namespace Text

/-- `u8::is_ascii_digit` / the class `[0-9]` of a regular expression
(gen/src/lib.rs:28, cli/src/cli.rs:67,69). -/
def isDigit (c : Char) : Bool := '0' ≤ c && c ≤ '9'

/-- Value of one digit. -/
def digit (c : Char) : Nat := c.toNat - '0'.toNat

/-- Value of a sequence of digits, most significant first. -/
def digits (s : Str) : Nat := s.foldl (fun acc c => acc * 10 + digit c) 0

/-- `str::parse::<uN>()` of `std`: an optional `+`, then one or more digits
whose value fits; `none` is `Err`.  (gen/src/lib.rs:33, cli/src/cli.rs:79,81,
codegen/src/param_codes.rs:108-115, gen/src/grib2_codeflag_csv.rs:57,58,152,161) -/
def parseUnsigned (limit : Nat) (s : Str) : Option Nat :=
  let ds := match s with
    | '+' :: r => r
    | _ => s
  if ds ≠ [] ∧ ds.all isDigit ∧ digits ds < limit then some (digits ds) else none

/-- `Display` of an unsigned integer. -/
def showNat (n : Nat) : Str := Nat.toDigits 10 n

/-- `str::split(c)` for a one-character separator: always at least one part.
(gen/src/grib2_codeflag_csv.rs:55,150,158,159; codegen/src/param_codes.rs:107) -/
def splitOn (sep : Char) : Str → List Str
  | [] => [[]]
  | c :: r =>
    if c = sep then [] :: splitOn sep r
    else match splitOn sep r with
      | w :: ws => (c :: w) :: ws
      | [] => [[c]]

/-- `str::split(", ")` (gen/src/grib2_codeflag_csv.rs:147). -/
def splitComma : Str → List Str
  | [] => [[]]
  | ',' :: ' ' :: r => [] :: splitComma r
  | c :: r =>
    match splitComma r with
      | w :: ws => (c :: w) :: ws
      | [] => [[c]]

end Text
end Grib
