import Verif.Lemmas.Ints

/-! # C01: signed octets decode as sign and magnitude -/

namespace Grib.Props

open Grib.Model Grib.Spec

/-- C01. The signed decoder used for 1- to 4-octet fields (spatial-differencing descriptors) gives the
sign-and-magnitude value of the bit string, for every octet string of length 1 to 4. -/
theorem C01_grib_int_is_sign_magnitude (bs : List UInt8) (h1 : 1 ≤ bs.length) (h4 : bs.length ≤ 4) :
    gribIntFromBytes bs = some (signMagnitude bs) := gribInt_spec bs h1 h4

example : gribIntFromBytes [0x81, 0x00, 0x02] = some (-65538) ∧ signMagnitude [0x81, 0x00, 0x02] = -65538 := by
  decide

/-- C01. The fixed-width decoder (`u8`/`u16`/`u32`/`u64` fields: 1, 2, 4 or 8 octets) gives the
sign-and-magnitude value of the bit string. -/
theorem C01_as_grib_int_is_sign_magnitude (bs : List UInt8) (h : 1 ≤ bs.length) :
    asGribInt (8 * bs.length) (be bs) = signMagnitude bs := asGribInt_spec bs h

example : asGribInt (8 * 2) (be [0x80, 0x1a]) = -26 := by decide

/-- C01. Any other length is not decoded (the code panics with `unimplemented!`). -/
theorem C01_other_lengths (bs : List UInt8) (h : bs.length = 0 ∨ 4 < bs.length) : gribIntFromBytes bs = none := by
  match bs with
  | [] => rfl
  | [_] => simp at h
  | [_, _] => simp at h
  | [_, _, _] => simp at h
  | [_, _, _, _] => simp at h
  | _ :: _ :: _ :: _ :: _ :: _ => rfl

/-- C01. The values produced by `n` octets are exactly the symmetric range `|v| < 2^(8n-1)`. -/
theorem C01_range (n : Nat) (h1 : 1 ≤ n) (h4 : n ≤ 4) (v : Int) :
    (∃ bs : List UInt8, bs.length = n ∧ gribIntFromBytes bs = some v) ↔ v.natAbs < 2 ^ (8 * n - 1) := by
  constructor
  · rintro ⟨bs, hl, hv⟩
    subst hl
    rw [gribInt_spec bs h1 h4] at hv
    obtain ⟨s, mag, hb, hm⟩ := bits_cases bs h1
    have hlt := ofBits_lt mag
    rw [hm] at hlt
    simp only [signMagnitude, hb, Option.some.injEq] at hv
    subst hv
    cases s <;> simp <;> exact hlt
  · intro hv
    obtain ⟨bs, hl, hb⟩ := exists_octets n h1 v hv
    exact ⟨bs, hl, by rw [gribInt_spec bs (by omega) (by omega), hb]⟩

/-- C01. Two different octet strings of one length decode to the same value only if both decode to zero
(the positive and the negative zero). -/
theorem C01_injective_up_to_zero (a b : List UInt8) (h1 : 1 ≤ a.length) (h4 : a.length ≤ 4)
    (hl : a.length = b.length) (h : gribIntFromBytes a = gribIntFromBytes b) :
    a = b ∨ gribIntFromBytes a = some 0 := by
  rw [gribInt_spec a h1 h4] at *
  rw [gribInt_spec b (by omega) (by omega)] at h
  obtain ⟨s, mag, hb, hm⟩ := bits_cases a h1
  obtain ⟨s', mag', hb', hm'⟩ := bits_cases b (by omega)
  simp only [signMagnitude, hb, hb', Option.some.injEq] at h ⊢
  have hmm : mag.length = mag'.length := by omega
  by_cases hs : s = s'
  · left
    subst hs
    have : ofBits mag = ofBits mag' := by cases s <;> simp at h <;> omega
    apply bits_inj
    rw [hb, hb', ofBits_inj hmm this]
  · right
    cases s <;> cases s' <;> simp_all <;> omega

/-- C01. Flipping only the top bit negates the value. -/
theorem C01_sign_bit_negates (b : UInt8) (rest : List UInt8) (h : rest.length ≤ 3) :
    gribIntFromBytes ((b ^^^ 0x80) :: rest) = (gribIntFromBytes (b :: rest)).map (- ·) := by
  rw [gribInt_spec _ (by simp) (by simp; omega), gribInt_spec _ (by simp) (by simp; omega)]
  have hx : ∀ b : UInt8, octetBits (b ^^^ 0x80) = (!(b.toNat.testBit 7)) :: (octetBits b).tail ∧
      octetBits b = (b.toNat.testBit 7) :: (octetBits b).tail := by
    intro b
    constructor
    · simp only [octetBits, List.range_succ_eq_map, List.range_zero, List.map_cons, List.map_nil, List.tail_cons,
        UInt8.toNat_xor, Nat.testBit_xor]
      simp [Nat.testBit_eq_decide_div_mod_eq]
    · simp [octetBits, List.range_succ_eq_map]
  obtain ⟨h1, h2⟩ := hx b
  simp only [signMagnitude, bits_cons, h1]
  rw [h2]
  simp only [List.cons_append, Option.map_some, Option.some.injEq]
  cases b.toNat.testBit 7 <;> simp

end Grib.Props
