import Verif.Model.Helpers
import Verif.Lemmas.Bits

/-! # Sign-and-magnitude integers -/

namespace Grib.Model

open Grib.Spec

theorem bits_cases (bs : List UInt8) (h : 1 ≤ bs.length) :
    ∃ s mag, bits bs = s :: mag ∧ mag.length = 8 * bs.length - 1 := by
  match hb : bits bs with
  | [] =>
    have := congrArg List.length hb
    simp at this; omega
  | s :: mag =>
    have := congrArg List.length hb
    simp at this
    exact ⟨s, mag, rfl, by omega⟩

theorem asGribInt_spec (bs : List UInt8) (h : 1 ≤ bs.length) :
    asGribInt (8 * bs.length) (be bs) = signMagnitude bs := by
  obtain ⟨s, mag, hb, hl⟩ := bits_cases bs h
  have hlt := ofBits_lt mag
  have e : 2 ^ (8 * bs.length) = 2 * 2 ^ (8 * bs.length - 1) := by
    rw [← Nat.pow_succ', Nat.succ_eq_add_one, Nat.sub_add_cancel (by omega)]
  have hv : be bs = (if s then 2 ^ (8 * bs.length - 1) else 0) + ofBits mag := by
    rw [be_eq_ofBits, hb, ofBits, hl]
  rw [hl] at hlt
  unfold asGribInt signMagnitude
  rw [hb]
  cases s
  · simp only [Bool.false_eq_true, if_false, Nat.zero_add] at *
    rw [if_neg (by omega), hv]
  · simp only [if_true] at *
    rw [if_pos (by omega), hv]
    rw [e, Nat.mul_comm _ 2, Nat.mul_mod_mul_left, Nat.mul_div_cancel_left _ (by omega),
      Nat.add_mod_left, Nat.mod_eq_of_lt hlt]

theorem gribInt_spec (bs : List UInt8) (h1 : 1 ≤ bs.length) (h4 : bs.length ≤ 4) :
    gribIntFromBytes bs = some (signMagnitude bs) := by
  match bs, h1, h4 with
  | [a], h1, _ =>
    rw [← asGribInt_spec [a] h1]; simp [gribIntFromBytes, be]
  | [a, b], h1, _ => rw [← asGribInt_spec _ h1]; simp [gribIntFromBytes]
  | [a, b, c], h1, _ =>
    rw [← asGribInt_spec _ h1]
    simp only [gribIntFromBytes, asGribInt, be, List.foldl]
    have ha := a.toNat_lt
    have hb := b.toNat_lt
    have hc := c.toNat_lt
    simp only [List.length_cons, List.length_nil, Nat.reduceAdd, Nat.reduceMul, Nat.reduceSub, Nat.reducePow,
      Nat.zero_mul, Nat.zero_add, Option.some.injEq] at *
    by_cases hp : a.toNat < 128
    · rw [if_pos (by simpa using hp), if_neg (by omega)]
      omega
    · rw [if_neg (by simpa using hp), if_pos (by omega)]
      omega
  | [a, b, c, d], h1, _ => rw [← asGribInt_spec _ h1]; simp [gribIntFromBytes]

/-- Octets of a sign-and-magnitude value. -/
theorem exists_octets (n : Nat) (hn : 1 ≤ n) (v : Int) (hv : v.natAbs < 2 ^ (8 * n - 1)) :
    ∃ bs : List UInt8, bs.length = n ∧ signMagnitude bs = v := by
  refine ⟨packOctets (decide (v < 0) :: toBits (8 * n - 1) v.natAbs), ?_, ?_⟩
  · simp; omega
  · unfold signMagnitude
    rw [bits_packOctets]
    simp only [List.length_cons, toBits_length, List.cons_append]
    have : 8 * ((8 * n - 1 + 1 + 7) / 8) - (8 * n - 1 + 1) = 0 := by omega
    rw [this]
    simp only [List.replicate_zero, List.append_nil, ofBits_toBits, Nat.mod_eq_of_lt hv]
    by_cases h : v < 0
    · simp [h]; omega
    · simp [h]; omega

theorem bits_inj {a b : List UInt8} (h : bits a = bits b) : a = b := by
  induction a generalizing b with
  | nil =>
    have := congrArg List.length h
    simp at this
    exact (List.length_eq_zero_iff.mp (by omega)).symm
  | cons x xs ih =>
    cases b with
    | nil => have := congrArg List.length h; simp at this
    | cons y ys =>
      rw [bits_cons, bits_cons] at h
      have h1 := List.append_inj h (by simp)
      have h2 : x.toNat = y.toNat := by rw [← ofBits_octetBits, ← ofBits_octetBits, h1.1]
      rw [UInt8.toNat_inj.mp h2, ih h1.2]

end Grib.Model
