import Verif.Lemmas.Bits

/-! # C02: bit-packed integers are extracted exactly -/

namespace Grib.Props

open Grib.Model Grib.Spec

/-- Calling `next` `n` times: the items returned so far and the iterator reached; `none` is a panic. -/
def nextN : Nat → NBit → Option (List (Option Nat) × NBit)
  | 0, it => some ([], it)
  | n + 1, it =>
    match it.next with
    | none => none
    | some (r, it') =>
      match nextN n it' with
      | none => none
      | some (rs, it'') => some (r :: rs, it'')

/-- C02. For every buffer, width `1 ≤ size ≤ 32`, start offset below one octet and every `k`, the `k`-th call
of `next` never panics and returns the integer written in bits `[offset + k*size, offset + (k+1)*size)` if
these bits exist, and `None` otherwise — in particular `None` on all calls after the first `None`. -/
theorem C02_nth_call (data : List UInt8) (size offset : Nat) (hs : 1 ≤ size) (h32 : size ≤ 32) (ho : offset < 8)
    (n : Nat) :
    ∃ rs it', nextN n ((NBit.new data size).withOffset offset) = some (rs, it') ∧
      rs = (List.range n).map fun k =>
        if offset + (k + 1) * size ≤ 8 * data.length then some (bitField data (offset + k * size) size) else none := by
  suffices h : ∀ n (it : NBit), it.offset < 8 → it.size = size → it.data = data →
      ∃ rs it', nextN n it = some (rs, it') ∧ rs = (List.range n).map fun k =>
        if it.bitPos + (k + 1) * size ≤ 8 * data.length then some (bitField data (it.bitPos + k * size) size)
        else none by
    have := h n ((NBit.new data size).withOffset offset) ho rfl rfl
    simpa [NBit.bitPos, NBit.new, NBit.withOffset] using this
  intro n
  induction n with
  | zero => intro it _ _ _; exact ⟨[], it, rfl, rfl⟩
  | succ n ih =>
    intro it ho hsz hd
    by_cases h : it.bitPos + it.size ≤ 8 * it.data.length
    · obtain ⟨rs, it', h1, h2⟩ := ih { it with pos := (it.bitPos + it.size) / 8, offset := (it.bitPos + it.size) % 8 }
        (Nat.mod_lt _ (by decide)) hsz hd
      refine ⟨some (bitField it.data it.bitPos it.size % 2 ^ 32) :: rs, it', ?_, ?_⟩
      · rw [nextN, NBit.next_some it ho (by omega) h]
        simp only [h1]
      · rw [h2, NBit.advance_bitPos, List.range_succ_eq_map, List.map_cons, List.map_map]
        subst hsz hd
        rw [Nat.mod_eq_of_lt (Nat.lt_of_lt_of_le (bitField_lt _ _ _) (Nat.pow_le_pow_right (by decide) h32))]
        simp only [Nat.zero_add, Nat.one_mul, Nat.zero_mul, Nat.add_zero, h, if_true]
        congr 1
        apply List.map_congr_left
        intro k _
        simp only [Function.comp, Nat.succ_eq_add_one, Nat.add_mul, Nat.one_mul]
        have e1 : it.bitPos + it.size + (k * it.size + it.size) = it.bitPos + (k * it.size + it.size + it.size) := by omega
        have e2 : it.bitPos + it.size + k * it.size = it.bitPos + (k * it.size + it.size) := by omega
        rw [e1, e2]
    · obtain ⟨rs, it', h1, h2⟩ := ih it ho hsz hd
      refine ⟨none :: rs, it', ?_, ?_⟩
      · rw [nextN, NBit.next_none it (by omega)]
        simp only [h1]
      · subst hsz hd
        have hz : ∀ k, ¬ (it.bitPos + (k + 1) * it.size ≤ 8 * it.data.length) := by
          intro k hk
          rw [Nat.add_mul] at hk; omega
        rw [h2]
        simp only [hz, if_false, List.map_const', List.length_range]
        rfl

example : nextN 4 ((NBit.new [0xab, 0xcd, 0xef] 7).withOffset 3) =
    some ([some 0x2f, some 0x1b, some 0x6f, none], ⟨[0xab, 0xcd, 0xef], 7, 3, 0⟩) := by decide

/-- C02. Draining the iterator yields exactly `⌊(8·len − offset)/size⌋` integers, field by field, and stops. -/
theorem C02_drain (data : List UInt8) (size offset : Nat) (hs : 1 ≤ size) (h32 : size ≤ 32) (ho : offset < 8) :
    ((NBit.new data size).withOffset offset).toList =
      .done ((List.range ((8 * data.length - offset) / size)).map fun k => bitField data (offset + k * size) size) := by
  rw [NBit.toList_spec _ ho hs]
  simp only [NBit.fields, NBit.bitPos, NBit.new, NBit.withOffset, Nat.mul_zero, Nat.zero_add]
  congr 1
  apply List.map_congr_left
  intro k _
  exact Nat.mod_eq_of_lt (Nat.lt_of_lt_of_le (bitField_lt _ _ _) (Nat.pow_le_pow_right (by decide) h32))

/-- C02, any width: of fields wider than 32 bits the last 32 bits are returned; the number of items is the same. -/
theorem C02_any_width (data : List UInt8) (size offset : Nat) (hs : 1 ≤ size) (ho : offset < 8) :
    ((NBit.new data size).withOffset offset).toList =
      .done ((List.range ((8 * data.length - offset) / size)).map fun k =>
        bitField data (offset + k * size) size % 2 ^ 32) := by
  rw [NBit.toList_spec _ ho hs]
  simp only [NBit.fields, NBit.bitPos, NBit.new, NBit.withOffset, Nat.mul_zero, Nat.zero_add]

example : ((NBit.new [1, 2, 3, 4, 5, 6] 40).withOffset 4).toList = .done [0x20304050] := by decide

/-- C02, other offsets: a start offset of an octet or more panics at the first item, if there is one. -/
theorem C02_offset_outside (data : List UInt8) (size offset : Nat) (ho : 8 ≤ offset) :
    nextN 1 ((NBit.new data size).withOffset offset) =
      if offset + size ≤ 8 * data.length then none else some ([none], (NBit.new data size).withOffset offset) := by
  have key : ((NBit.new data size).withOffset offset).next =
      if offset + size ≤ 8 * data.length then none else some (none, (NBit.new data size).withOffset offset) := by
    by_cases h : offset + size ≤ 8 * data.length
    · rw [if_pos h]
      unfold NBit.next NBit.new NBit.withOffset
      simp only [Nat.zero_add]
      rw [if_neg (by omega)]
      split
      · rfl
      · rw [if_pos ho]
    · rw [if_neg h]
      exact NBit.next_none _ (by simp only [NBit.bitPos, NBit.new, NBit.withOffset]; omega)
  unfold nextN
  rw [key]
  by_cases h : offset + size ≤ 8 * data.length
  · simp only [if_pos h]
  · simp only [if_neg h, nextN]

example : nextN 1 ((NBit.new [1, 2] 3).withOffset 8) = none := by decide

/-- C02 / C21. Packing `n`-bit integers most significant bit first, padding the last octet and appending any
further octets, then reading: the integers come back first, in order. -/
theorem C21_pack_read (n : Nat) (hn : 1 ≤ n) (h32 : n ≤ 32) (xs : List Nat) (hx : ∀ x ∈ xs, x < 2 ^ n)
    (tail : List UInt8) :
    NBit.takeList xs.length (NBit.new (packInts n xs ++ tail) n) = some xs := by
  rw [NBit.takeList_spec _ _ (by simp [NBit.new]) (by simpa [NBit.new] using hn), NBit.fields_new]
  have hlen : xs.length ≤ 8 * (packInts n xs ++ tail).length / n := by
    rw [Nat.le_div_iff_mul_le (by omega)]
    simp only [packInts, List.length_append, packOctets_length, flatMap_toBits_length]
    rw [Nat.mul_comm xs.length]; omega
  have : min xs.length ((8 * (NBit.new (packInts n xs ++ tail) n).data.length -
      (NBit.new (packInts n xs ++ tail) n).bitPos) / (NBit.new (packInts n xs ++ tail) n).size) = xs.length := by
    simp only [NBit.new, NBit.bitPos, Nat.mul_zero, Nat.add_zero, Nat.sub_zero]
    omega
  rw [this]
  congr 1
  apply List.ext_getElem (by simp)
  intro k h1 h2
  simp only [List.getElem_map, List.getElem_range]
  rw [bitField_packInts_append n xs tail k h2]
  have hb := hx _ (List.getElem_mem h2)
  rw [Nat.mod_eq_of_lt hb, Nat.mod_eq_of_lt (Nat.lt_of_lt_of_le hb (Nat.pow_le_pow_right (by decide) h32))]

example : NBit.takeList 3 (NBit.new (packInts 5 [17, 0, 31] ++ [9]) 5) = some [17, 0, 31] := by decide

/-- C02, edge: a width of zero on a non-empty buffer never ends (each call returns 0).  The code reaches this
only from run-length decoding with a zero bit count (see C26); elsewhere width zero is handled separately. -/
theorem C02_width_zero_never_ends (data : List UInt8) (h : data ≠ []) (fuel : Nat) :
    (NBit.new data 0).drain fuel = .more (List.replicate fuel 0) := by
  have hl : 0 < data.length := by cases data <;> simp_all
  have hn : (NBit.new data 0).next = some (some 0, NBit.new data 0) := by
    obtain ⟨b, rest, rfl⟩ : ∃ b rest, data = b :: rest := by
      cases data with
      | nil => exact absurd rfl h
      | cons b rest => exact ⟨b, rest, rfl⟩
    simp only [NBit.next, NBit.new]
    have hb := b.toNat_lt
    simp [Nat.mod_eq_of_lt hb, Nat.shiftRight_eq_div_pow]
    exact hb
  induction fuel with
  | zero => rfl
  | succ n ih => rw [NBit.drain, hn]; simp only [ih, Drained.cons]; rfl

end Grib.Props
