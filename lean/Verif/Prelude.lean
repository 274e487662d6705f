/-!
# Prelude: outcomes of Rust computations and big-endian octet strings

Shared by the whole model.  `Outcome` makes Rust panics explicit values.
-/

namespace Grib

/-- Outcome of a Rust function returning `Result<α, ε>` that may also panic. -/
inductive Outcome (ε : Type) (α : Type) where
  | ok (a : α)
  | err (e : ε)
  | panic
deriving DecidableEq, Repr

namespace Outcome

variable {ε α β : Type}

/-- `?`-style sequencing. -/
def bind (x : Outcome ε α) (f : α → Outcome ε β) : Outcome ε β :=
  match x with
  | ok a => f a
  | err e => err e
  | panic => panic

instance : Monad (Outcome ε) where
  pure := ok
  bind := bind

@[simp] theorem pure_eq (a : α) : (pure a : Outcome ε α) = ok a := rfl
@[simp] theorem bind_ok (a : α) (f : α → Outcome ε β) : (ok a >>= f) = f a := rfl
@[simp] theorem bind_err (e : ε) (f : α → Outcome ε β) : ((err e : Outcome ε α) >>= f) = err e := rfl
@[simp] theorem bind_panic (f : α → Outcome ε β) : ((panic : Outcome ε α) >>= f) = panic := rfl
@[simp] theorem map_ok (a : α) (f : α → β) : (f <$> (ok a : Outcome ε α)) = ok (f a) := rfl
@[simp] theorem map_err (e : ε) (f : α → β) : (f <$> (err e : Outcome ε α)) = err e := rfl
@[simp] theorem map_panic (f : α → β) : (f <$> (panic : Outcome ε α)) = panic := rfl

def isOk : Outcome ε α → Bool
  | ok _ => true
  | _ => false

/-- The value, if any. -/
def ok? : Outcome ε α → Option α
  | ok a => some a
  | _ => none

theorem exists_of_ok? {x : Outcome ε α} {f : α → β} {b : β} (h : x.ok?.map f = some b) : ∃ a, x = ok a ∧ f a = b := by
  cases x <;> simp_all [ok?]

/-- `Result::map_err`. -/
def mapErr {ε' : Type} (f : ε → ε') : Outcome ε α → Outcome ε' α
  | ok a => ok a
  | err e => err (f e)
  | panic => panic

/-- `Option::unwrap` (and every other partial operation): `none` panics. -/
def ofOption : Option α → Outcome ε α
  | some a => ok a
  | none => panic

@[simp] theorem ofOption_some (a : α) : (ofOption (some a) : Outcome ε α) = ok a := rfl
@[simp] theorem ofOption_none : (ofOption (none : Option α) : Outcome ε α) = panic := rfl

/-- A guard whose failure is a panic (arithmetic overflow, assertion, slice bound). -/
def require (c : Bool) : Outcome ε Unit := if c then ok () else panic

@[simp] theorem require_true : (require true : Outcome ε Unit) = ok () := rfl
@[simp] theorem require_false : (require false : Outcome ε Unit) = panic := rfl

end Outcome

/-- `usize::MAX + 1` on the 64-bit targets the model assumes. -/
def USIZE : Nat := 2 ^ 64

/-- Value of an octet string read as a big-endian unsigned number
(`from_be_bytes`, used by `read_as!`, src/helpers.rs:27-32). -/
def be (bs : List UInt8) : Nat := bs.foldl (fun acc b => acc * 256 + b.toNat) 0

/-- Checked slice `&buf[start..start+len]`: `none` is Rust's out-of-range panic. -/
def slice? (buf : List UInt8) (start len : Nat) : Option (List UInt8) :=
  if start + len ≤ buf.length then some ((buf.drop start).take len) else none

/-- `read_as!(uN, buf, start)` for an `N = 8*len` bit unsigned type
(src/helpers.rs:27-32); `none` is the out-of-range panic of `buf[start..end]`. -/
def readBE? (buf : List UInt8) (start len : Nat) : Option Nat :=
  (slice? buf start len).map be

end Grib
