import Verif.Model.Bits
import Verif.Lemmas.Spec

/-! # `NBitwiseIterator` extracts bit fields -/

namespace Grib.Model

open Grib.Spec

theorem shiftOr (v k x : Nat) (hk : k ≤ 32) (hx : x < 2 ^ k) :
    ((v <<< k) % 2 ^ 32) ||| x = (v * 2 ^ k + x) % 2 ^ 32 := by
  rw [Nat.shiftLeft_eq]
  have e : 2 ^ 32 = 2 ^ k * 2 ^ (32 - k) := by rw [← Nat.pow_add]; congr 1; omega
  have h1 : v * 2 ^ k % 2 ^ 32 = (v % 2 ^ (32 - k)) <<< k := by
    rw [e, Nat.mul_comm v, Nat.mul_mod_mul_left, Nat.shiftLeft_eq, Nat.mul_comm]
  rw [h1, ← Nat.shiftLeft_add_eq_or_of_lt hx, ← h1]
  have h2 : v * 2 ^ k % 2 ^ 32 + x < 2 ^ 32 := by
    rw [h1, Nat.shiftLeft_eq]
    have : v % 2 ^ (32 - k) + 1 ≤ 2 ^ (32 - k) := Nat.mod_lt _ (Nat.two_pow_pos _)
    calc v % 2 ^ (32 - k) * 2 ^ k + x < v % 2 ^ (32 - k) * 2 ^ k + 2 ^ k := by omega
      _ = (v % 2 ^ (32 - k) + 1) * 2 ^ k := by rw [Nat.add_mul, Nat.one_mul]
      _ ≤ 2 ^ (32 - k) * 2 ^ k := Nat.mul_le_mul_right _ this
      _ = 2 ^ 32 := by rw [e, Nat.mul_comm]
  rw [← Nat.mod_add_mod, Nat.mod_eq_of_lt h2]

theorem mod_fma (a b c n : Nat) : (a % n * b + c) % n = (a * b + c) % n := by
  rw [Nat.add_mod, Nat.mod_mul_mod, ← Nat.add_mod]

theorem getElem?_drop_cons {α : Type} {l : List α} {i : Nat} {b : α} (h : l[i]? = some b) :
    l.drop i = b :: l.drop (i + 1) := by
  obtain ⟨hi, hb⟩ := List.getElem?_eq_some_iff.mp h
  rw [List.drop_eq_getElem_cons hi, hb]

theorem NBit.fold_spec (data : List UInt8) (n pos acc : Nat) (h : pos + n ≤ data.length)
    (ha : acc < 2 ^ 32) :
    NBit.fold data n pos acc =
      some ((acc * 2 ^ (8 * n) + ofBits (bits ((data.drop pos).take n))) % 2 ^ 32) := by
  induction n generalizing pos acc with
  | zero => simp [NBit.fold, Nat.mod_eq_of_lt ha]
  | succ n ih =>
    have hp : pos < data.length := by omega
    have hd : data[pos]? = some data[pos] := List.getElem?_eq_getElem hp
    rw [NBit.fold, hd]
    simp only
    rw [shiftOr _ _ _ (by omega) data[pos].toNat_lt, ih _ _ (by omega) (Nat.mod_lt _ (by omega))]
    rw [List.drop_eq_getElem_cons hp, List.take_succ_cons, bits_cons, ofBits_append, ofBits_octetBits]
    rw [bits_length, List.length_take, List.length_drop, Nat.min_eq_left (by omega)]
    congr 1
    rw [mod_fma]
    congr 1
    rw [Nat.add_mul, Nat.mul_add 8, Nat.pow_add, Nat.add_assoc, Nat.mul_assoc]
    congr 2
    rw [Nat.mul_comm]

theorem val_eq (b : UInt8) (off : Nat) (h : off < 8) :
    ((b.toNat <<< off) % 256) >>> off = ofBits ((octetBits b).drop off) := by
  rw [octetBits_eq, ofBits_drop_toBits, Nat.shiftLeft_eq, Nat.shiftRight_eq_div_pow]
  have e : 256 = 2 ^ off * 2 ^ (8 - off) := by
    rw [← Nat.pow_add, Nat.add_sub_cancel' (by omega)]
  rw [e, Nat.mul_comm b.toNat, Nat.mul_mod_mul_left, Nat.mul_div_cancel_left _ (Nat.two_pow_pos _)]

/-- Bit position of an iterator. -/
def NBit.bitPos (it : NBit) : Nat := 8 * it.pos + it.offset

theorem NBit.next_none (it : NBit) (h : 8 * it.data.length < it.bitPos + it.size) :
    it.next = some (none, it) := by
  unfold NBit.bitPos at h
  unfold NBit.next
  simp only
  rw [if_pos]
  omega

theorem NBit.next_some (it : NBit) (ho : it.offset < 8) (hs : 1 ≤ it.size)
    (h : it.bitPos + it.size ≤ 8 * it.data.length) :
    it.next = some (some (bitField it.data it.bitPos it.size % 2 ^ 32),
      { it with pos := (it.bitPos + it.size) / 8, offset := (it.bitPos + it.size) % 8 }) := by
  unfold NBit.bitPos at *
  obtain ⟨data, size, pos, off⟩ := it
  simp only at *
  have e1 : (8 * pos + off + size) / 8 = pos + (off + size) / 8 := by omega
  have e2 : (8 * pos + off + size) % 8 = (off + size) % 8 := by omega
  rw [e1, e2]
  unfold NBit.next
  simp only
  have hp : pos < data.length := by omega
  have hd : data[pos]? = some data[pos] := List.getElem?_eq_getElem hp
  rw [if_neg (by omega), hd]
  simp only
  rw [if_neg (by omega), val_eq _ _ ho]
  have hbits : (bits data).drop (8 * pos + off) =
      (octetBits data[pos]).drop off ++ bits (data.drop (pos + 1)) := by
    rw [← List.drop_drop, bits_drop, List.drop_eq_getElem_cons hp, bits_cons, List.drop_append,
      octetBits_length, Nat.sub_eq_zero_of_le (by omega : off ≤ 8), List.drop_zero]
  unfold bitField
  rw [hbits]
  split
  · rename_i hq
    have hlt : off + size < 8 := by omega
    rw [Nat.mod_eq_of_lt hlt, List.take_append_of_le_length (by simp; omega), ofBits_take]
    rw [Nat.shiftRight_eq_div_pow]
    simp only [List.length_drop, octetBits_length]
    rw [Nat.mod_eq_of_lt, Nat.sub_sub]
    have h1 := ofBits_lt ((octetBits data[pos]).drop off)
    have h2 : ofBits ((octetBits data[pos]).drop off) < 2 ^ 32 := by
      apply Nat.lt_of_lt_of_le h1
      apply Nat.pow_le_pow_right (by omega)
      simp; omega
    exact Nat.lt_of_le_of_lt (Nat.div_le_self _ _) h2
  · rename_i hq
    have hA : ofBits ((octetBits data[pos]).drop off) < 2 ^ 32 := by
      apply Nat.lt_of_lt_of_le (ofBits_lt _)
      apply Nat.pow_le_pow_right (by omega)
      simp; omega
    generalize hm : pos + (off + size) / 8 - (pos + 1) = m
    have hmid : pos + 1 + m ≤ data.length := by omega
    rw [NBit.fold_spec _ _ _ _ hmid hA]
    simp only
    have hrest : bits (data.drop (pos + 1)) =
        bits ((data.drop (pos + 1)).take m) ++ bits (data.drop (pos + 1 + m)) := by
      rw [← bits_append, ← List.drop_drop (i := m), List.take_append_drop]
    have hlm : ((data.drop (pos + 1)).take m).length = m := by simp; omega
    have hnp : pos + (off + size) / 8 = pos + 1 + m := by omega
    have hsz : size = (8 - off) + 8 * m + (off + size) % 8 := by omega
    have htake : ((octetBits data[pos]).drop off ++ bits (data.drop (pos + 1))).take size =
        ((octetBits data[pos]).drop off ++ bits ((data.drop (pos + 1)).take m)) ++
          (bits (data.drop (pos + 1 + m))).take ((off + size) % 8) := by
      rw [hrest, ← List.append_assoc, List.take_append, List.take_of_length_le]
      · congr 2
        simp only [List.length_append, List.length_drop, octetBits_length, bits_length, hlm]
        omega
      · simp only [List.length_append, List.length_drop, octetBits_length, bits_length, hlm]
        omega
    rw [htake, ofBits_append, ofBits_append, bits_length, hlm, List.length_take, bits_length]
    split
    · rename_i hno
      rw [hnp]
      have hl : pos + 1 + m < data.length := by omega
      rw [List.getElem?_eq_getElem hl]
      simp only
      have hmin : min ((off + size) % 8) (8 * (data.drop (pos + 1 + m)).length) = (off + size) % 8 := by
        simp; omega
      rw [hmin]
      have hlast : ofBits ((bits (data.drop (pos + 1 + m))).take ((off + size) % 8)) =
          data[pos + 1 + m].toNat >>> (8 - (off + size) % 8) := by
        rw [List.drop_eq_getElem_cons hl, bits_cons, List.take_append_of_le_length (by simp; omega),
          octetBits_eq, ofBits_take_toBits, Nat.shiftRight_eq_div_pow]
        rw [Nat.mod_eq_of_lt data[pos + 1 + m].toNat_lt]
      rw [hlast, shiftOr _ _ _ (by omega)]
      · rw [mod_fma]
      · rw [← hlast]
        apply Nat.lt_of_lt_of_le (ofBits_lt _)
        apply Nat.pow_le_pow_right (by omega)
        simp; omega
    · rename_i hno
      have h0 : (off + size) % 8 = 0 := by omega
      simp [h0]

end Grib.Model

namespace Grib.Model

open Grib.Spec

/-- The values that remain in an iterator, as bit fields. -/
def NBit.fields (it : NBit) (n : Nat) : List Nat :=
  (List.range n).map fun k => bitField it.data (it.bitPos + k * it.size) it.size % 2 ^ 32

theorem NBit.advance_bitPos (it : NBit) :
    NBit.bitPos { it with pos := (it.bitPos + it.size) / 8, offset := (it.bitPos + it.size) % 8 } =
      it.bitPos + it.size := by
  simp only [NBit.bitPos]; omega

theorem NBit.fields_succ (it : NBit) (n : Nat) :
    it.fields (n + 1) = bitField it.data it.bitPos it.size % 2 ^ 32 ::
      NBit.fields { it with pos := (it.bitPos + it.size) / 8, offset := (it.bitPos + it.size) % 8 } n := by
  simp only [NBit.fields, List.range_succ_eq_map, List.map_cons, List.map_map]
  rw [NBit.advance_bitPos]
  simp only [Nat.zero_mul, Nat.add_zero, List.cons.injEq, true_and]
  apply List.map_congr_left
  intro k _
  simp only [Function.comp]
  congr 2
  rw [Nat.succ_mul]; omega

theorem NBit.takeList_spec (n : Nat) (it : NBit) (ho : it.offset < 8) (hs : 1 ≤ it.size) :
    it.takeList n = some (it.fields (min n ((8 * it.data.length - it.bitPos) / it.size))) := by
  induction n generalizing it with
  | zero => simp [NBit.takeList, NBit.fields]
  | succ n ih =>
    rw [NBit.takeList]
    by_cases h : it.bitPos + it.size ≤ 8 * it.data.length
    · rw [NBit.next_some it ho hs h]
      simp only
      rw [ih { it with pos := (it.bitPos + it.size) / 8, offset := (it.bitPos + it.size) % 8 }
        (Nat.mod_lt _ (by decide)) hs]
      rw [NBit.advance_bitPos]
      simp only [Option.map_some]
      have : (8 * it.data.length - it.bitPos) / it.size =
          (8 * it.data.length - (it.bitPos + it.size)) / it.size + 1 := by
        rw [← Nat.sub_sub, ← Nat.div_eq_sub_div (by omega) (by omega)]
      rw [this, Nat.add_min_add_right, NBit.fields_succ]
    · rw [NBit.next_none it (by omega)]
      simp only
      rw [Nat.div_eq_of_lt (by omega)]
      simp [NBit.fields]

theorem NBit.drain_spec (fuel : Nat) (it : NBit) (ho : it.offset < 8) (hs : 1 ≤ it.size)
    (hf : (8 * it.data.length - it.bitPos) / it.size < fuel) :
    it.drain fuel = .done (it.fields ((8 * it.data.length - it.bitPos) / it.size)) := by
  induction fuel generalizing it with
  | zero => exact absurd hf (Nat.not_lt_zero _)
  | succ fuel ih =>
    rw [NBit.drain]
    by_cases h : it.bitPos + it.size ≤ 8 * it.data.length
    · rw [NBit.next_some it ho hs h]
      simp only
      have e : (8 * it.data.length - it.bitPos) / it.size =
          (8 * it.data.length - (it.bitPos + it.size)) / it.size + 1 := by
        rw [← Nat.sub_sub, ← Nat.div_eq_sub_div (by omega) (by omega)]
      rw [ih { it with pos := (it.bitPos + it.size) / 8, offset := (it.bitPos + it.size) % 8 }
        (Nat.mod_lt _ (by decide)) hs]
      · rw [NBit.advance_bitPos]
        simp only
        rw [e, NBit.fields_succ]; rfl
      · rw [NBit.advance_bitPos]; simp only; omega
    · rw [NBit.next_none it (by omega)]
      simp only
      rw [Nat.div_eq_of_lt (by omega)]
      simp [NBit.fields]

theorem NBit.toList_spec (it : NBit) (ho : it.offset < 8) (hs : 1 ≤ it.size) :
    it.toList = .done (it.fields ((8 * it.data.length - it.bitPos) / it.size)) := by
  apply NBit.drain_spec _ _ ho hs
  unfold NBit.enough
  have := Nat.div_le_self (8 * it.data.length - it.bitPos) it.size
  omega

theorem NBit.fields_new (data : List UInt8) (size n : Nat) :
    (NBit.new data size).fields n =
      (List.range n).map fun k => bitField data (k * size) size % 2 ^ 32 := by
  simp [NBit.fields, NBit.new, NBit.bitPos]

end Grib.Model

namespace Grib.Spec

theorem bitField_lt (data : List UInt8) (s n : Nat) : bitField data s n < 2 ^ n := by
  unfold bitField
  apply Nat.lt_of_lt_of_le (ofBits_lt _)
  exact Nat.pow_le_pow_right (by omega) (by simp; omega)

/-- The bits of the padded octet `i` of `packOctets bs`. -/
theorem bits_packOctets_aux (bs : List Bool) (n : Nat) (h : bs.length ≤ 8 * n) :
    bits ((List.range n).map fun i =>
      UInt8.ofNat (ofBits ((List.range 8).map fun j => bs.getD (8 * i + j) false))) =
      bs ++ List.replicate (8 * n - bs.length) false := by
  induction n generalizing bs with
  | zero => simp_all
  | succ n ih =>
    have hoct : ∀ (l : List Bool), l.length = 8 → octetBits (UInt8.ofNat (ofBits l)) = l := by
      intro l hl
      rw [octetBits_eq]
      have : (UInt8.ofNat (ofBits l)).toNat = ofBits l := by
        have h1 := ofBits_lt l
        rw [hl] at h1
        simp only [UInt8.toNat_ofNat']
        exact Nat.mod_eq_of_lt h1
      rw [this]
      have := toBits_ofBits l
      rwa [hl] at this
    rw [List.range_succ_eq_map (n := n), List.map_cons, bits_cons, hoct _ (by simp), List.map_map]
    have e : ((fun i => UInt8.ofNat (ofBits ((List.range 8).map fun j => bs.getD (8 * i + j) false))) ∘
        Nat.succ) = fun i => UInt8.ofNat (ofBits ((List.range 8).map fun j =>
          (bs.drop 8).getD (8 * i + j) false)) := by
      funext i
      simp only [Function.comp]
      congr 2
      apply List.map_congr_left
      intro j _
      simp only [List.getD_eq_getElem?_getD, List.getElem?_drop]
      congr 2
      omega
    rw [e, ih (bs.drop 8) (by simp; omega)]
    apply List.ext_getElem?
    intro k
    by_cases hk : k < 8
    · rw [List.getElem?_append_left (by simp; omega)]
      rw [List.getElem?_map, List.getElem?_range hk]
      simp only [Option.map_some, Nat.mul_zero, Nat.zero_add, List.getD_eq_getElem?_getD]
      by_cases hkb : k < bs.length
      · rw [List.getElem?_append_left hkb, List.getElem?_eq_getElem hkb]; rfl
      · rw [List.getElem?_append_right (by omega), List.getElem?_eq_none (by omega),
          List.getElem?_replicate, if_pos (by omega)]; rfl
    · rw [List.getElem?_append_right (by simp; omega)]
      simp only [List.length_map, List.length_range]
      by_cases hkb : k < bs.length
      · rw [List.getElem?_append_left hkb, List.getElem?_append_left (by simp; omega), List.getElem?_drop]
        congr 1; omega
      · rw [List.getElem?_append_right (l₁ := bs) (by omega),
          List.getElem?_append_right (by simp; omega), List.getElem?_replicate, List.getElem?_replicate]
        simp only [List.length_drop]
        split <;> split <;> first | rfl | omega

theorem bits_packOctets (bs : List Bool) :
    bits (packOctets bs) = bs ++ List.replicate (8 * ((bs.length + 7) / 8) - bs.length) false :=
  bits_packOctets_aux bs _ (by omega)

@[simp] theorem packOctets_length (bs : List Bool) : (packOctets bs).length = (bs.length + 7) / 8 := by
  simp [packOctets]

theorem flatMap_toBits_length (n : Nat) (xs : List Nat) : (xs.flatMap (toBits n)).length = n * xs.length := by
  induction xs with
  | nil => simp
  | cons x xs ih => simp [ih, Nat.mul_add]; omega

theorem drop_flatMap_toBits (n : Nat) (xs : List Nat) (k : Nat) :
    (xs.flatMap (toBits n)).drop (k * n) = (xs.drop k).flatMap (toBits n) := by
  induction xs generalizing k with
  | nil => simp
  | cons x xs ih => cases k with
    | zero => simp
    | succ k =>
      rw [List.flatMap_cons, List.drop_append, List.drop_eq_nil_of_le (by simp [Nat.succ_mul])]
      simp only [toBits_length, List.nil_append, List.drop_succ_cons]
      rw [← ih]
      congr 1
      rw [Nat.succ_mul]; omega

/-- Field `k` of a packed list of integers, with anything after it. -/
theorem bitField_packInts_append (n : Nat) (xs : List Nat) (tail : List UInt8) (k : Nat) (hk : k < xs.length) :
    bitField (packInts n xs ++ tail) (k * n) n = xs[k] % 2 ^ n := by
  unfold bitField packInts
  have h1 : k * n ≤ n * xs.length := by rw [Nat.mul_comm]; exact Nat.mul_le_mul_left _ (by omega)
  rw [bits_append, bits_packOctets, List.append_assoc, List.drop_append_of_le_length]
  · rw [drop_flatMap_toBits, List.drop_eq_getElem_cons hk, List.flatMap_cons, List.append_assoc,
      List.take_append_of_le_length (by simp), List.take_of_length_le (by simp), ofBits_toBits]
  · rw [flatMap_toBits_length]; exact h1

end Grib.Spec
