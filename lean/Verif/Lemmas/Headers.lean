import Verif.Lemmas.Opened
import Verif.Lemmas.Ints

/-! # Reading fields of section payloads -/

namespace Grib.Model

open Grib.Spec Grib.Props

variable {ε : Type}

theorem payloadAt_length {data : List UInt8} {p size : Nat} (h : p + size ≤ data.length) :
    (payloadAt data p size).length = size - 5 := by
  simp only [payloadAt, List.length_take, List.length_drop]; omega

/-- A slice of the payload is a field of the section. -/
theorem rdAs_payload {data : List UInt8} {p size start len : Nat} (h : p + size ≤ data.length) (h5 : 5 ≤ size)
    (hl : 1 ≤ len) :
    (rdAs (payloadAt data p size) start len : Outcome ε Nat) =
      if start + len + 5 ≤ size then .ok (field data p (start + 6) (start + 5 + len)) else .panic := by
  unfold rdAs readBE? slice?
  rw [payloadAt_length h]
  by_cases hc : start + len + 5 ≤ size
  · rw [if_pos hc, if_pos (by omega)]
    simp only [Option.map_some, Outcome.ofOption_some]
    rw [← number_eq _ _ _ (by rw [payloadAt_length h]; omega), payloadAt, number_take_drop (by omega), field]
    congr 2 <;> omega
  · rw [if_neg hc, if_neg (by omega)]; rfl

theorem getElem_payload {data : List UInt8} {p size i : Nat} (h : p + size ≤ data.length) (h5 : 5 ≤ size) :
    (payloadAt data p size)[i]?.map UInt8.toNat =
      if i + 6 ≤ size then some (field data p (i + 6) (i + 6)) else none := by
  by_cases hc : i + 6 ≤ size
  · rw [if_pos hc, payloadAt, List.getElem?_take, if_pos (by omega), List.getElem?_drop,
      List.getElem?_eq_getElem (by omega)]
    simp only [Option.map_some, Option.some.injEq, field]
    rw [show i + 6 + 1 - (i + 6) = 1 by omega, show p + (i + 6 - 1) = p + 5 + i by omega]
    simp [number, octet, List.range_succ, show p + 5 + i < data.length by omega]
  · rw [if_neg hc, List.getElem?_eq_none (by rw [payloadAt_length h]; omega)]; rfl

theorem rdIdx_payload {data : List UInt8} {p size i : Nat} (h : p + size ≤ data.length) (h5 : 5 ≤ size) :
    (rdIdx (payloadAt data p size) i : Outcome ε Nat) =
      if i + 6 ≤ size then .ok (field data p (i + 6) (i + 6)) else .panic := by
  unfold rdIdx
  rw [getElem_payload h h5]
  split <;> rfl

theorem take_payload {data : List UInt8} {p size a n : Nat} (h : a + n ≤ size - 5) :
    ((payloadAt data p size).drop a).take n = (data.drop (p + 5 + a)).take n := by
  rw [payloadAt, List.drop_take, List.take_take, List.drop_drop, Nat.min_eq_left (by omega)]

theorem asGribInt_field {data : List UInt8} {p f l w : Nat} (h : p + l ≤ data.length) (hf : 1 ≤ f) (hl : f ≤ l)
    (hw : w = 8 * (l + 1 - f)) : asGribInt w (field data p f l) = signedField data p f l := by
  rw [field, number_eq _ _ _ (by omega), signedField]
  have hlen : ((data.drop (p + (f - 1))).take (l + 1 - f)).length = l + 1 - f := by
    rw [List.length_take, List.length_drop]; omega
  rw [← asGribInt_spec _ (by rw [hlen]; omega), hlen, hw]

/-- A faithful section 1 to 5, spelled out. -/
theorem faithful_payload {data : List UInt8} {s : SectionInfo} (h : Faithful data s) (h1 : 1 ≤ s.num) (h5 : s.num ≤ 5) :
    s.offset + s.size ≤ data.length ∧ 5 ≤ s.size ∧ minPayload s.num + 5 ≤ s.size := by
  have a := h.whole (by omega)
  have b := h.header h1 (by omega)
  have c := a.2 (by omega)
  omega

end Grib.Model
