import Verif.Model.Decoder
import Verif.Spec.Decode
import Verif.Lemmas.Headers
import Verif.Lemmas.Bits

/-! # Decoder lemmas -/

namespace Grib.Model

open Grib.Spec Grib.Props

variable {ε F : Type}

theorem rdAs_number {p : List UInt8} {i n : Nat} (h : i + n ≤ p.length) : (rdAs p i n : Outcome ε Nat) = .ok (number p i n) := by
  unfold rdAs readBE? slice?
  rw [if_pos h, Option.map_some, Outcome.ofOption_some, number_eq p i n h]

theorem rdAs_panic {p : List UInt8} {i n : Nat} (h : p.length < i + n) : (rdAs p i n : Outcome ε Nat) = .panic := by
  unfold rdAs readBE? slice?
  rw [if_neg (by omega)]; rfl

theorem number_lt (p : List UInt8) (i n : Nat) : number p i n < 2 ^ (8 * n) := by
  unfold number
  induction n with
  | zero => simp
  | succ n ih =>
    rw [List.range_succ, List.foldl_append]
    simp only [List.foldl_cons, List.foldl_nil]
    have : octet p (i + n) < 256 := by unfold octet; exact UInt8.toNat_lt _
    rw [show 8 * (n + 1) = 8 * n + 8 by omega, Nat.pow_add]
    omega

/-- A field of a slice of a section. -/
theorem rdAs_slice {p buf : List UInt8} {a n i m : Nat} (hs : slice? p a n = some buf) (h : i + m ≤ n) :
    (rdAs buf i m : Outcome ε Nat) = .ok (number p (a + i) m) := by
  unfold slice? at hs
  split at hs
  · rename_i hb
    cases hs
    rw [rdAs_number (by rw [List.length_take, List.length_drop]; omega), number_take_drop h]
  · cases hs

theorem asGribInt_number {p : List UInt8} {i n : Nat} (h : i + n ≤ p.length) (hn : 1 ≤ n) :
    asGribInt (8 * n) (number p i n) = signMagnitude ((p.drop i).take n) := by
  rw [number_eq p i n h, ← asGribInt_spec _ (by rw [List.length_take, List.length_drop]; omega)]
  rw [List.length_take, List.length_drop, Nat.min_eq_left (by omega)]

/-- The parameters of simple packing. -/
theorem fromSect5_eq (ops : FloatOps F) {p : List UInt8} (h : 16 ≤ p.length) :
    SimpleParam.fromSect5 ops p =
      if sectNumber p 21 21 ≠ 0 then .err (.decodeError (.simplePacking .originalFieldValueTypeNotSupported))
      else .ok ⟨ops.ofBits (sectNumber p 12 15), sectSigned p 16 17, sectSigned p 18 19, sectNumber p 20 20⟩ := by
  obtain ⟨buf, hb⟩ : ∃ buf, slice? p 6 10 = some buf := ⟨_, by unfold slice?; rw [if_pos (by omega)]⟩
  unfold SimpleParam.fromSect5
  rw [hb]
  simp only [Outcome.ofOption_some, Outcome.bind_ok, rdAs_slice hb (show 0 + 4 ≤ 10 by omega),
    rdAs_slice hb (show 4 + 2 ≤ 10 by omega), rdAs_slice hb (show 6 + 2 ≤ 10 by omega),
    rdAs_slice hb (show 8 + 1 ≤ 10 by omega), rdAs_slice hb (show 9 + 1 ≤ 10 by omega)]
  rw [asGribInt_number (n := 2) (by omega) (by omega), asGribInt_number (n := 2) (by omega) (by omega)]
  rfl

theorem fromSect5_short (ops : FloatOps F) {p : List UInt8} (h : p.length < 16) :
    SimpleParam.fromSect5 ops p = .panic := by
  unfold SimpleParam.fromSect5 slice?
  rw [if_neg (by omega)]; rfl

theorem NBit.items_new (data : List UInt8) {n : Nat} (hn : 1 ≤ n) :
    (NBit.new data n).items = (List.range (8 * data.length / n)).map fun k => .ok (bitField data (k * n) n % 2 ^ 32) := by
  unfold NBit.items
  rw [NBit.toList_spec _ (by simp [NBit.new]) (by simpa [NBit.new] using hn), NBit.fields_new]
  simp [NBit.new, NBit.bitPos, Function.comp]

theorem bitField_mod {data : List UInt8} {s n : Nat} (h : n ≤ 32) : bitField data s n % 2 ^ 32 = bitField data s n :=
  Nat.mod_eq_of_lt (Nat.lt_of_lt_of_le (bitField_lt _ _ _) (Nat.pow_le_pow_right (by decide) h))

theorem ratPowi_eq (x : Rat) (n : Int) : ratPowi x n = zpow x n := by
  cases n with
  | ofNat n => simp [ratPowi, zpow]
  | negSucc n =>
    have : ¬ (0 : Int) ≤ Int.negSucc n := by omega
    simp only [ratPowi, zpow, this, if_false]
    congr 2

theorem unpack_exact (p : SimpleParam (Option Rat)) {r : Rat} (hr : p.refVal = some r) (x : Int) :
    p.unpack FloatOps.exact (FloatOps.exact.ofInt x) = some (unpacked r p.exp p.dig x) := by
  simp only [SimpleParam.unpack, FloatOps.exact, hr, unpacked, ratPowi_eq]
  rfl

end Grib.Model
