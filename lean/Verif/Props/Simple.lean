import Verif.Lemmas.Decoder

/-! # C20, C21: simple packing -/

namespace Grib.Props

open Grib.Model Grib.Spec

variable {F : Type}

/-- The number of bits per value of a section 5 (template 5.0, octet 20). -/
abbrev bitsPerValue (sect5 : List UInt8) : Nat := sectNumber sect5 20 20

/-- C20. Template 5.0 with `1 ≤ n ≤ 32` bits per value: decoding gives `⌊8·len/n⌋` values, the `k`-th one is
`(R + X_k·2^E)·10^-D`, computed with these floating-point operations in this order, where `R`, `E`, `D` are octets 12-15,
16-17, 18-19 of section 5 and `X_k` is the integer in bits `[k·n, (k+1)·n)` of the data of section 7. -/
theorem C20_values (ops : FloatOps F) (t : Decoder) (hlen : 16 ≤ t.sect5.length) (htype : sectNumber t.sect5 21 21 = 0)
    (hn : 1 ≤ bitsPerValue t.sect5) (h32 : bitsPerValue t.sect5 ≤ 32) :
    simpleDecode ops t = .ok ((List.range (8 * t.sect7.length / bitsPerValue t.sect5)).map fun k =>
      .ok (ops.mul
        (ops.add (ops.ofBits (sectNumber t.sect5 12 15))
          (ops.mul (ops.ofInt (bitField t.sect7 (k * bitsPerValue t.sect5) (bitsPerValue t.sect5)))
            (ops.powi (ops.ofInt 2) (sectSigned t.sect5 16 17))))
        (ops.powi (ops.ofInt 10) (-sectSigned t.sect5 18 19)))) := by
  unfold simpleDecode
  rw [fromSect5_eq ops hlen, if_neg (by simpa using htype), Outcome.bind_ok]
  simp only [show sectNumber t.sect5 20 20 ≠ 0 from Nat.pos_iff_ne_zero.mp hn, if_false]
  rw [NBit.items_new _ hn]
  simp only [SimpleParam.unpackAll, List.map_map, Function.comp_def, SimpleParam.unpack, Outcome.map_ok, bitField_mod h32]

/-- Section 5 and 7 with `R = 1.5`, `E = -2`, `D = 1`, 5 bits. -/
def sampleSimple : Decoder :=
  ⟨3, 3, 0, [0, 0, 0, 3, 0, 0, 0x3f, 0xc0, 0, 0, 0x80, 2, 0, 1, 5, 0], [0xff], packInts 5 [17, 0, 31]⟩

example : simpleDecode FloatOps.exact sampleSimple =
    .ok [.ok (some (23 / 40)), .ok (some (3 / 20)), .ok (some (37 / 40))] := by decide +kernel

/-- C20. The same in exact arithmetic, for a finite reference value. -/
theorem C20_exact (t : Decoder) (hlen : 16 ≤ t.sect5.length) (htype : sectNumber t.sect5 21 21 = 0)
    (hn : 1 ≤ bitsPerValue t.sect5) (h32 : bitsPerValue t.sect5 ≤ 32) (r : Rat)
    (hr : f32Value (sectNumber t.sect5 12 15) = some r) :
    simpleDecode FloatOps.exact t = .ok ((List.range (8 * t.sect7.length / bitsPerValue t.sect5)).map fun k =>
      .ok (some (unpacked r (sectSigned t.sect5 16 17) (sectSigned t.sect5 18 19)
        (bitField t.sect7 (k * bitsPerValue t.sect5) (bitsPerValue t.sect5))))) := by
  rw [C20_values _ t hlen htype hn h32]
  congr 1
  apply List.map_congr_left
  intro k _
  congr 1
  exact unpack_exact ⟨some r, _, _, 0⟩ rfl _ ▸ by rw [← hr]; rfl

example : f32Value (sectNumber sampleSimple.sect5 12 15) = some (3 / 2) := by decide +kernel

/-- C20. With zero bits per value every encoded point has the value `R·10^-D`. -/
theorem C20_constant (ops : FloatOps F) (t : Decoder) (hlen : 16 ≤ t.sect5.length) (htype : sectNumber t.sect5 21 21 = 0)
    (hn : bitsPerValue t.sect5 = 0) :
    simpleDecode ops t = .ok (List.replicate t.numPointsEncoded
      (.ok (ops.mul (ops.ofBits (sectNumber t.sect5 12 15)) (ops.powi (ops.ofInt 10) (-sectSigned t.sect5 18 19))))) := by
  unfold simpleDecode
  rw [fromSect5_eq ops hlen, if_neg (by simpa using htype), Outcome.bind_ok]
  simp only [show sectNumber t.sect5 20 20 = 0 from hn, if_true]
  rfl

example : simpleDecode FloatOps.exact { sampleSimple with sect5 := sampleSimple.sect5.set 14 0 } =
    .ok [.ok (some (3 / 20)), .ok (some (3 / 20)), .ok (some (3 / 20))] := by decide +kernel

/-- C20. An original field type other than floating point (octet 21 not zero) is an error. -/
theorem C20_field_type (ops : FloatOps F) (t : Decoder) (hlen : 16 ≤ t.sect5.length) (htype : sectNumber t.sect5 21 21 ≠ 0) :
    simpleDecode ops t = .err (.decodeError (.simplePacking .originalFieldValueTypeNotSupported)) := by
  unfold simpleDecode
  rw [fromSect5_eq ops hlen, if_pos htype]; rfl

example : simpleDecode FloatOps.exact { sampleSimple with sect5 := sampleSimple.sect5.set 15 1 } =
    .err (.decodeError (.simplePacking .originalFieldValueTypeNotSupported)) := by decide +kernel

/-- C20, limits. More than 32 bits per value: the integers are silently reduced modulo `2^32`. -/
theorem C20_wide (ops : FloatOps F) (t : Decoder) (hlen : 16 ≤ t.sect5.length) (htype : sectNumber t.sect5 21 21 = 0)
    (hn : 1 ≤ bitsPerValue t.sect5) :
    simpleDecode ops t = .ok ((List.range (8 * t.sect7.length / bitsPerValue t.sect5)).map fun k =>
      .ok (ops.mul
        (ops.add (ops.ofBits (sectNumber t.sect5 12 15))
          (ops.mul (ops.ofInt ((bitField t.sect7 (k * bitsPerValue t.sect5) (bitsPerValue t.sect5) % 2 ^ 32 : Nat)))
            (ops.powi (ops.ofInt 2) (sectSigned t.sect5 16 17))))
        (ops.powi (ops.ofInt 10) (-sectSigned t.sect5 18 19)))) := by
  unfold simpleDecode
  rw [fromSect5_eq ops hlen, if_neg (by simpa using htype), Outcome.bind_ok]
  simp only [show sectNumber t.sect5 20 20 ≠ 0 from Nat.pos_iff_ne_zero.mp hn, if_false]
  rw [NBit.items_new _ hn]
  simp only [SimpleParam.unpackAll, List.map_map, Function.comp_def, SimpleParam.unpack, Outcome.map_ok]

/-- C20, limits. A section 5 without the 16 octets of the template is a panic, not an error.  (Opening a file accepts
such a section: it checks the first six octets of the payload only.) -/
theorem C20_short_section_panics (ops : FloatOps F) (t : Decoder) (hlen : t.sect5.length < 16) :
    simpleDecode ops t = .panic := by
  unfold simpleDecode; rw [fromSect5_short ops hlen]; rfl

/-- C21. Packing integers of `n` bits, most significant bit first, padding the last octet (and appending anything), and
decoding the result as section 7: the first values are exactly the integers put through `(R + X·2^E)·10^-D`, in order. -/
theorem C21_decode (t : Decoder) (hlen : 16 ≤ t.sect5.length) (htype : sectNumber t.sect5 21 21 = 0)
    (hn : 1 ≤ bitsPerValue t.sect5) (h32 : bitsPerValue t.sect5 ≤ 32) (r : Rat)
    (hr : f32Value (sectNumber t.sect5 12 15) = some r) (xs : List Nat) (hx : ∀ x ∈ xs, x < 2 ^ bitsPerValue t.sect5)
    (tail : List UInt8) (h7 : t.sect7 = packInts (bitsPerValue t.sect5) xs ++ tail) :
    ∃ items, simpleDecode FloatOps.exact t = .ok items ∧
      items.take xs.length =
        xs.map fun x => .ok (some (unpacked r (sectSigned t.sect5 16 17) (sectSigned t.sect5 18 19) (x : Nat))) := by
  refine ⟨_, C20_exact t hlen htype hn h32 r hr, ?_⟩
  have hl : xs.length ≤ 8 * t.sect7.length / bitsPerValue t.sect5 := by
    rw [Nat.le_div_iff_mul_le (by omega), h7]
    simp only [packInts, List.length_append, packOctets_length, flatMap_toBits_length]
    rw [Nat.mul_comm xs.length]; omega
  apply List.ext_getElem
  · simp only [List.length_take, List.length_map, List.length_range]; omega
  · intro k h1 h2
    simp only [List.length_map] at h2
    simp only [List.getElem_take, List.getElem_map, List.getElem_range]
    rw [h7, bitField_packInts_append _ xs tail k h2, Nat.mod_eq_of_lt (hx _ (List.getElem_mem h2))]

example : ∃ items, simpleDecode FloatOps.exact sampleSimple = .ok items ∧ items.take 3 =
    [17, 0, 31].map fun x : Nat => .ok (some (unpacked (3 / 2) (-2) 1 x)) :=
  C21_decode sampleSimple (by decide) (by decide) (by decide) (by decide) (3 / 2) (by decide +kernel) [17, 0, 31]
    (by decide) [] (by decide)

end Grib.Props
