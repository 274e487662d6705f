import Verif.Model.Text

/-!
# Specification: decimal numbers and code table files

Independent of the generator in `Verif.Model.CodeTables`.
-/

namespace Grib.Spec

/-- `IsDecimal s n`: the text `s` is a non-empty sequence of decimal digits
with value `n`. -/
inductive IsDecimal : Str → Nat → Prop
  | one (d : Nat) (h : d < 10) : IsDecimal [Char.ofNat (48 + d)] d
  | more (s : Str) (n d : Nat) (hs : IsDecimal s n) (h : d < 10) :
      IsDecimal (s ++ [Char.ofNat (48 + d)]) (10 * n + d)

/-- The text does not begin with a decimal digit. -/
def NoDigitFirst (s : Str) : Prop := ∀ d < 10, s.head? ≠ some (Char.ofNat (48 + d))

/-- `Lists id a b`: the code column `id` lists the codes `a` to `b`: a number,
or two numbers separated by a hyphen (anything but a digit may follow).
Numbers must be below `2^64`. -/
inductive Lists : Str → Nat → Nat → Prop
  | single (s : Str) (a : Nat) (h : IsDecimal s a) (ha : a < 2 ^ 64) : Lists s a a
  | range (s t rest : Str) (a b : Nat) (hs : IsDecimal s a) (ha : a < 2 ^ 64)
      (ht : IsDecimal t b) (hb : b < 2 ^ 64) (hr : NoDigitFirst rest) :
      Lists (s ++ '-' :: t ++ rest) a b

/-- Descriptions that mean "no entry". -/
def placeholders : List String :=
  ["Future versions", "Reserved", "Reserved for local use", "Reserved for other centres",
   "Missing", "Missing value", ")"]

/-- The description describes something. -/
def Describes (text : Str) : Prop := String.ofList text ∉ placeholders

/-- The rows of a table list the codes contiguously from `next`: each row that
lists codes begins right after the previous one.  Rows whose code column is
not of that form (comments) are skipped. -/
inductive Contiguous : Nat → List (Str × Str) → Prop
  | nil (next : Nat) : Contiguous next []
  | comment (next : Nat) (id text : Str) (rows : List (Str × Str))
      (h : ¬ ∃ a b, Lists id a b) (hr : Contiguous next rows) : Contiguous next ((id, text) :: rows)
  | row (next b : Nat) (id text : Str) (rows : List (Str × Str))
      (h : Lists id next b) (hb : next ≤ b) (hr : Contiguous (b + 1) rows) :
      Contiguous next ((id, text) :: rows)

/-- Equal members of the list are adjacent: nothing else occurs between them. -/
def Grouped {α : Type} (l : List α) : Prop :=
  ∀ p q r : List α, ∀ a b : α, l = p ++ a :: (q ++ b :: r) → a ∈ r → b = a

end Grib.Spec
