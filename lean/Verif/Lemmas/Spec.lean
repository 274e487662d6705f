import Verif.Prelude
import Verif.Spec.Bits

/-! # Lemmas about the bit-string specification -/

namespace Grib.Spec

@[simp] theorem ofBits_nil : ofBits [] = 0 := rfl

theorem ofBits_append (a b : List Bool) : ofBits (a ++ b) = ofBits a * 2 ^ b.length + ofBits b := by
  induction a with
  | nil => simp
  | cons x xs ih =>
    simp only [List.cons_append, ofBits, ih, List.length_append, Nat.pow_add]
    split <;> simp [Nat.add_mul, Nat.add_assoc]

theorem ofBits_lt (a : List Bool) : ofBits a < 2 ^ a.length := by
  induction a with
  | nil => simp
  | cons x xs ih =>
    simp only [ofBits, List.length_cons, Nat.pow_succ]
    split <;> omega

@[simp] theorem octetBits_length (b : UInt8) : (octetBits b).length = 8 := by simp [octetBits]

@[simp] theorem toBits_length (n x : Nat) : (toBits n x).length = n := by simp [toBits]

theorem toBits_succ (n x : Nat) : toBits (n + 1) x = x.testBit n :: toBits n x := by
  simp only [toBits, List.range_succ_eq_map, List.map_cons, List.map_map]
  congr 1
  apply List.map_congr_left
  intro i hi
  simp only [Function.comp, List.mem_range] at *
  congr 1
  omega

theorem ofBits_toBits (n x : Nat) : ofBits (toBits n x) = x % 2 ^ n := by
  induction n with
  | zero => simp [toBits, Nat.mod_one]
  | succ n ih =>
    rw [toBits_succ, ofBits, ih, toBits_length]
    rw [Nat.mod_pow_succ, Nat.testBit_eq_decide_div_mod_eq]
    rcases Nat.mod_two_eq_zero_or_one (x / 2 ^ n) with h | h <;> simp [h] <;> omega

theorem ofBits_inj {a b : List Bool} (hl : a.length = b.length) (h : ofBits a = ofBits b) : a = b := by
  induction a generalizing b with
  | nil => cases b with
    | nil => rfl
    | cons => simp at hl
  | cons x xs ih => cases b with
    | nil => simp at hl
    | cons y ys =>
      simp only [List.length_cons, Nat.add_right_cancel_iff] at hl
      simp only [ofBits] at h
      have h1 := ofBits_lt xs
      have h2 := ofBits_lt ys
      rw [hl] at h h1
      have : x = y := by
        cases x <;> cases y <;> simp_all <;> omega
      subst this
      rw [ih hl (by omega)]

theorem toBits_ofBits (a : List Bool) : toBits a.length (ofBits a) = a :=
  ofBits_inj (by simp) (by rw [ofBits_toBits, Nat.mod_eq_of_lt (ofBits_lt a)])

theorem octetBits_eq (b : UInt8) : octetBits b = toBits 8 b.toNat := by
  simp [octetBits, toBits]

theorem ofBits_octetBits (b : UInt8) : ofBits (octetBits b) = b.toNat := by
  rw [octetBits_eq, ofBits_toBits]
  exact Nat.mod_eq_of_lt b.toNat_lt

theorem ofBits_take (l : List Bool) (k : Nat) :
    ofBits (l.take k) = ofBits l / 2 ^ (l.length - k) := by
  have h2 := congrArg ofBits (List.take_append_drop k l)
  rw [ofBits_append] at h2
  have h3 := ofBits_lt (l.drop k)
  rw [List.length_drop] at h2 h3
  rw [← h2, Nat.mul_comm, Nat.mul_add_div (Nat.two_pow_pos _), Nat.div_eq_of_lt h3, Nat.add_zero]

theorem ofBits_drop (l : List Bool) (k : Nat) :
    ofBits (l.drop k) = ofBits l % 2 ^ (l.length - k) := by
  have h2 := congrArg ofBits (List.take_append_drop k l)
  rw [ofBits_append] at h2
  have h3 := ofBits_lt (l.drop k)
  rw [List.length_drop] at h2 h3
  rw [← h2, Nat.mul_comm, Nat.mul_add_mod, Nat.mod_eq_of_lt h3]

theorem ofBits_take_toBits (n k x : Nat) :
    ofBits ((toBits n x).take k) = x % 2 ^ n / 2 ^ (n - k) := by
  have h1 := List.take_append_drop k (toBits n x)
  have h2 := congrArg ofBits h1
  rw [ofBits_append, ofBits_toBits] at h2
  have h3 := ofBits_lt ((toBits n x).drop k)
  rw [List.length_drop, toBits_length] at h2 h3
  rw [← h2, Nat.mul_comm, Nat.mul_add_div (Nat.two_pow_pos _), Nat.div_eq_of_lt h3, Nat.add_zero]

theorem ofBits_drop_toBits (n k x : Nat) :
    ofBits ((toBits n x).drop k) = x % 2 ^ (n - k) := by
  by_cases h : k ≤ n
  · have h1 := List.take_append_drop k (toBits n x)
    have h2 := congrArg ofBits h1
    rw [ofBits_append, ofBits_toBits] at h2
    have h3 := ofBits_lt ((toBits n x).drop k)
    rw [List.length_drop, toBits_length] at h2 h3
    have h4 : x % 2 ^ n % 2 ^ (n - k) = ofBits ((toBits n x).drop k) := by
      rw [← h2, Nat.mul_comm, Nat.mul_add_mod, Nat.mod_eq_of_lt h3]
    rw [← h4, Nat.mod_mod_of_dvd _ (Nat.pow_dvd_pow 2 (by omega))]
  · rw [List.drop_eq_nil_of_le (by simp; omega)]
    simp [show n - k = 0 by omega, Nat.mod_one]

@[simp] theorem bits_nil : bits [] = [] := rfl
@[simp] theorem bits_cons (b : UInt8) (bs : List UInt8) : bits (b :: bs) = octetBits b ++ bits bs := by
  simp [bits]
@[simp] theorem bits_append (a b : List UInt8) : bits (a ++ b) = bits a ++ bits b := by
  simp [bits]
@[simp] theorem bits_length (a : List UInt8) : (bits a).length = 8 * a.length := by
  induction a with
  | nil => rfl
  | cons x xs ih => simp [ih]; omega

theorem bits_drop (a : List UInt8) (k : Nat) : (bits a).drop (8 * k) = bits (a.drop k) := by
  induction a generalizing k with
  | nil => simp
  | cons x xs ih => cases k with
    | zero => simp
    | succ k =>
      rw [bits_cons, List.drop_append, List.drop_eq_nil_of_le (by simp; omega), List.drop_succ_cons, ← ih]
      simp only [octetBits_length, List.nil_append]
      congr 1

theorem bits_take (a : List UInt8) (k : Nat) : (bits a).take (8 * k) = bits (a.take k) := by
  induction a generalizing k with
  | nil => simp
  | cons x xs ih => cases k with
    | zero => simp
    | succ k =>
      rw [bits_cons, List.take_append, List.take_of_length_le (by simp; omega), List.take_succ_cons,
        bits_cons, ← ih]
      simp only [octetBits_length]
      congr 2

end Grib.Spec

namespace Grib

open Spec

theorem be_foldl (acc : Nat) (bs : List UInt8) :
    bs.foldl (fun acc b => acc * 256 + b.toNat) acc = acc * 2 ^ (8 * bs.length) + ofBits (bits bs) := by
  induction bs generalizing acc with
  | nil => simp
  | cons b bs ih =>
    rw [List.foldl_cons, ih, bits_cons, ofBits_append, ofBits_octetBits, bits_length, List.length_cons,
      Nat.mul_add, Nat.pow_add, Nat.add_mul]
    simp [Nat.mul_comm, Nat.mul_left_comm, Nat.add_assoc]

/-- `from_be_bytes` is the value of the bit string. -/
theorem be_eq_ofBits (bs : List UInt8) : be bs = ofBits (bits bs) := by
  simp [be, be_foldl]

theorem be_lt (bs : List UInt8) : be bs < 2 ^ (8 * bs.length) := by
  rw [be_eq_ofBits, ← bits_length]; exact ofBits_lt _

end Grib
