import Verif.Props.Bitmap

/-! # C62: exactly what iterating over the decoded values yields -/

namespace Grib.Props

open Grib.Model Grib.Spec

variable {F : Type}

/-- The bits of the bitmap that are looked at: one per grid point below eight points, all of them otherwise. -/
def consulted (t : Decoder) : List Bool :=
  if t.numPointsTotal < 8 then (bits t.bitmap).take t.numPointsTotal else bits t.bitmap

/-- How many points are served by `n` values: those up to which (inclusive) the bits demand at most `n` values. -/
def served (bs : List Bool) (n : Nat) : Nat :=
  (List.range bs.length).countP fun k => decide ((bs.take (k + 1)).count true ≤ n)

theorem served_nil (n : Nat) : served [] n = 0 := rfl

theorem served_false (bs : List Bool) (n : Nat) : served (false :: bs) n = served bs n + 1 := by
  unfold served
  rw [List.length_cons, List.range_succ_eq_map, List.countP_cons, List.countP_map]
  simp [Function.comp_def]

theorem served_true_zero (bs : List Bool) : served (true :: bs) 0 = 0 := by
  unfold served
  rw [List.countP_eq_zero]
  intro k _
  simp

theorem served_true_succ (bs : List Bool) (n : Nat) : served (true :: bs) (n + 1) = served bs n + 1 := by
  unfold served
  rw [List.length_cons, List.range_succ_eq_map, List.countP_cons, List.countP_map]
  simp [Function.comp_def]

theorem served_le (bs : List Bool) (n : Nat) : served bs n ≤ bs.length := by
  unfold served
  exact Nat.le_trans List.countP_le_length (by simp)

theorem spread_served (ops : FloatOps F) (bs : List Bool) (vs : List F) :
    ∃ out, spread ops bs (vs.map .ok) = .done out ∧ out.length = served bs vs.length ∧
      ∀ k < out.length, out[k]? = if bs[k]? = some true then vs[(bs.take k).count true]? else some ops.nan := by
  induction bs generalizing vs with
  | nil => exact ⟨[], rfl, rfl, by simp⟩
  | cons b bs ih =>
    cases b with
    | false =>
      obtain ⟨out, h1, h2, h3⟩ := ih vs
      refine ⟨ops.nan :: out, ?_, ?_, ?_⟩
      · simp only [spread, h1, Drained.cons]
      · rw [List.length_cons, h2, served_false]
      · intro k hk
        cases k with
        | zero => simp
        | succ k => simpa using h3 k (by simpa using hk)
    | true =>
      cases vs with
      | nil => exact ⟨[], rfl, (served_true_zero bs).symm, by simp⟩
      | cons v vs =>
        obtain ⟨out, h1, h2, h3⟩ := ih vs
        refine ⟨v :: out, ?_, ?_, ?_⟩
        · simp only [List.map_cons, spread, h1, Drained.cons]
        · rw [List.length_cons, List.length_cons, h2, served_true_succ]
        · intro k hk
          cases k with
          | zero => simp
          | succ k => simpa using h3 k (by simpa using hk)

theorem spread_panic (ops : FloatOps F) (bs : List Bool) (vs : List F) (rest : Items F) :
    (bs.count true ≤ vs.length → spread ops bs (vs.map .ok ++ .panic :: rest) = spread ops bs (vs.map .ok)) ∧
    (vs.length < bs.count true → spread ops bs (vs.map .ok ++ .panic :: rest) = .panic) := by
  induction bs generalizing vs with
  | nil => simp [spread]
  | cons b bs ih =>
    cases b with
    | false =>
      obtain ⟨h1, h2⟩ := ih vs
      constructor
      · intro h
        simp only [spread]
        rw [h1 (by simpa using h)]
      · intro h
        simp only [spread]
        rw [h2 (by simpa using h)]
        rfl
    | true =>
      cases vs with
      | nil =>
        constructor
        · intro h; simp at h
        · intro _; rfl
      | cons v vs =>
        obtain ⟨h1, h2⟩ := ih vs
        constructor
        · intro h
          simp only [List.map_cons, List.cons_append, spread]
          rw [h1 (by simpa using h)]
        · intro h
          simp only [List.map_cons, List.cons_append, spread]
          rw [h2 (by simpa using h)]
          rfl

/-- C62. Let section 7 decode to the values `vs`.  If the bitmap has fewer bits than there are points, decoding is an error.
Otherwise the number of items is exactly the number of bits up to which the values suffice, and each of them is NaN where
the bit is 0 and otherwise the value with as many values before it as there are ones before its bit. -/
theorem C62_items (c : Codecs F) (t : Decoder) (vs : List F) (hv : t.decodeValues c = .ok (vs.map .ok)) :
    (8 * t.bitmap.length < t.numPointsTotal → t.dispatch c = .err (.decodeError .lengthMismatch)) ∧
    (t.numPointsTotal ≤ 8 * t.bitmap.length → ∃ it out, t.dispatch c = .ok it ∧ it.toList c.ops = .done out ∧
      out.length = served (consulted t) vs.length ∧
      ∀ k < out.length, out[k]? =
        if (consulted t)[k]? = some true then vs[((consulted t).take k).count true]? else some c.ops.nan) := by
  refine ⟨C23_short_bitmap c t _ hv, fun hl => ?_⟩
  obtain ⟨out, h1, h2, h3⟩ := spread_served c.ops (consulted t) vs
  exact ⟨_, out, dispatch_ok c t _ hv hl, by rw [BitmapIter.toList_eq _ _ _ _ hl]; exact h1, h2, h3⟩

/-- C62. If some item of the data panics when it is decoded (`vs` being those before it), then iterating panics exactly if
the bitmap demands more values than `vs`. -/
theorem C62_panics (c : Codecs F) (t : Decoder) (vs : List F) (rest : Items F)
    (hv : t.decodeValues c = .ok (vs.map .ok ++ .panic :: rest)) (hl : t.numPointsTotal ≤ 8 * t.bitmap.length) :
    ∃ it, t.dispatch c = .ok it ∧ (it.toList c.ops = .panic ↔ vs.length < (consulted t).count true) := by
  refine ⟨_, dispatch_ok c t _ hv hl, ?_⟩
  rw [BitmapIter.toList_eq _ _ _ _ hl]
  obtain ⟨h1, h2⟩ := spread_panic c.ops (consulted t) vs rest
  constructor
  · intro h
    refine Nat.lt_of_not_le fun hc => ?_
    have h3 := h1 hc
    obtain ⟨out, h4, -⟩ := spread_served c.ops (consulted t) vs
    rw [h4] at h3
    unfold consulted at h3
    rw [h3] at h
    cases h
  · exact h2

theorem count_take_succ (bs : List Bool) (k : Nat) : (bs.take k).count true ≤ (bs.take (k + 1)).count true :=
  (List.take_sublist_take_left (by omega)).count_le _

/-- The number of points served: the longest prefix whose ones the values cover. -/
theorem served_iff (bs : List Bool) (n m : Nat) (hm : m ≤ bs.length) :
    served bs n = m ↔ (bs.take m).count true ≤ n ∧ (bs.length = m ∨ n < (bs.take (m + 1)).count true) := by
  induction bs generalizing n m with
  | nil =>
    have : m = 0 := by simpa using hm
    subst this
    simp [served_nil]
  | cons b bs ih =>
    cases b with
    | false =>
      rw [served_false]
      cases m with
      | zero => simp
      | succ m =>
        rw [Nat.add_right_cancel_iff, ih n m (by simpa using hm)]
        simp
    | true =>
      cases n with
      | zero =>
        rw [served_true_zero]
        cases m with
        | zero => simp
        | succ m => simp
      | succ n =>
        rw [served_true_succ]
        cases m with
        | zero => simp
        | succ m =>
          rw [Nat.add_right_cancel_iff, ih n m (by simpa using hm)]
          simp

/-- C62. Decoding yields exactly as many values as there are grid points if and only if there are enough values for the
bits of the points and either no bit beyond them is looked at (fewer than eight points, or a multiple of eight without
spare octets) or the first such bit demands a value that is not there. -/
theorem C62_exact_count (c : Codecs F) (t : Decoder) (vs : List F) (hv : t.decodeValues c = .ok (vs.map .ok))
    (hl : t.numPointsTotal ≤ 8 * t.bitmap.length) :
    ∃ it out, t.dispatch c = .ok it ∧ it.toList c.ops = .done out ∧
      (out.length = t.numPointsTotal ↔
        ((bits t.bitmap).take t.numPointsTotal).count true ≤ vs.length ∧
          (t.numPointsTotal < 8 ∨ 8 * t.bitmap.length = t.numPointsTotal ∨
            vs.length < ((bits t.bitmap).take (t.numPointsTotal + 1)).count true)) := by
  obtain ⟨it, out, h1, h2, h3, -⟩ := (C62_items c t vs hv).2 hl
  refine ⟨it, out, h1, h2, ?_⟩
  have hlen : (bits t.bitmap).length = 8 * t.bitmap.length := by simp
  rw [h3, served_iff _ _ _ (by unfold consulted; split <;> simp <;> omega)]
  unfold consulted
  split
  · rename_i h8
    rw [List.take_take, List.take_take, Nat.min_self, Nat.min_eq_right (by omega : t.numPointsTotal ≤ t.numPointsTotal + 1),
      List.length_take, Nat.min_eq_left (by omega)]
    simp [h8]
  · rename_i h8
    rw [hlen]
    simp [h8]

/-- C62. Simple packing without a bitmap: the number of items is the smaller of the number of whole integers in section 7
and the number of points, rounded up to a multiple of eight from eight points on. -/
theorem C62_simple (c : Codecs F) (t : Decoder) (h0 : t.templateNum = 0) (hlen : 16 ≤ t.sect5.length)
    (htype : sectNumber t.sect5 21 21 = 0) (hn : 1 ≤ bitsPerValue t.sect5)
    (hb : t.bitmap = createBitmap t.numPointsTotal) :
    ∃ it out, t.dispatch c = .ok it ∧ it.toList c.ops = .done out ∧
      out.length = min (8 * t.sect7.length / bitsPerValue t.sect5)
        (if t.numPointsTotal < 8 then t.numPointsTotal else (t.numPointsTotal + 7) / 8 * 8) := by
  have hv : ∃ vs : List F, t.decodeValues c = .ok (vs.map .ok) ∧ vs.length = 8 * t.sect7.length / bitsPerValue t.sect5 := by
    have := C20_wide c.ops t hlen htype hn
    unfold Decoder.decodeValues
    rw [h0]
    simp only
    rw [this]
    refine ⟨(List.range (8 * t.sect7.length / bitsPerValue t.sect5)).map fun k => c.ops.mul
      (c.ops.add (c.ops.ofBits (sectNumber t.sect5 12 15))
        (c.ops.mul (c.ops.ofInt ((bitField t.sect7 (k * bitsPerValue t.sect5) (bitsPerValue t.sect5) % 2 ^ 32 : Nat)))
          (c.ops.powi (c.ops.ofInt 2) (sectSigned t.sect5 16 17))))
      (c.ops.powi (c.ops.ofInt 10) (-sectSigned t.sect5 18 19)), ?_, by rw [List.length_map, List.length_range]⟩
    rw [List.map_map]
    rfl
  obtain ⟨vs, hv, hvl⟩ := hv
  obtain ⟨it, h1, h2⟩ := C22_no_bitmap_partial c t vs hv hb
  exact ⟨it, _, h1, h2, by rw [List.length_take, hvl, Nat.min_comm]⟩

/-- Ten points, three missing, seven values: exactly ten items, since the last consulted bits demand values. -/
def sampleTen : Decoder :=
  ⟨10, 7, 0, [0, 0, 0, 7, 0, 0, 0, 0, 0, 0, 0, 0, 0, 0, 8, 0], [0b10110111, 0b01111111], [1, 2, 3, 4, 5, 6, 7]⟩

example : sampleTen.decodeValues exactCodecs = .ok (([1, 2, 3, 4, 5, 6, 7].map some).map .ok) := by decide +kernel
example : served (consulted sampleTen) 7 = 10 := by decide
example : ((bits sampleTen.bitmap).take 10).count true ≤ 7 ∧ 7 < ((bits sampleTen.bitmap).take 11).count true := by decide
example : ∃ it, sampleTen.dispatch exactCodecs = .ok it ∧ it.toList exactCodecs.ops =
    .done [some 1, none, some 2, some 3, none, some 4, some 5, some 6, none, some 7] :=
  Outcome.exists_of_ok? (f := fun it : BitmapIter (Option Rat) => it.toList exactCodecs.ops) (by decide +kernel)

/-- With padding bits 0 instead there are sixteen items. -/
example : served (consulted { sampleTen with bitmap := [0b10110111, 0b01000000] }) 7 = 16 := by decide

theorem advance_offset (ops : FloatOps F) (k : Nat) (it : BitmapIter F) (h0 : it.offset ≤ 7) (h1 : it.offset ≤ it.len) :
    (advance ops k it).len = it.len ∧
    (advance ops k it).offset = if it.len < 8 then min (it.offset + k) it.len else (it.offset + k) % 8 := by
  induction k generalizing it with
  | zero =>
    refine ⟨rfl, ?_⟩
    simp only [advance]
    split <;> omega
  | succ k ih =>
    have hs : (it.next ops).2.len = it.len ∧
        (it.next ops).2.offset = if it.len ≤ it.offset then it.offset else if it.offset < 7 then it.offset + 1 else 0 := by
      unfold BitmapIter.next
      simp only []
      by_cases hl : it.len ≤ it.offset
      · rw [if_pos hl, if_pos hl]; exact ⟨rfl, rfl⟩
      · rw [if_neg hl, if_neg hl]
        by_cases h7 : it.offset < 7 <;> simp only [h7, if_true, if_false]
        all_goals
          split
          · exact ⟨rfl, rfl⟩
          · split
            · exact ⟨rfl, rfl⟩
            · split <;> exact ⟨rfl, rfl⟩
    obtain ⟨hl, ho⟩ := hs
    have ho7 : (it.next ops).2.offset ≤ 7 ∧ (it.next ops).2.offset ≤ (it.next ops).2.len := by
      rw [ho, hl]; split
      · omega
      · split <;> omega
    obtain ⟨e1, e2⟩ := ih (it.next ops).2 ho7.1 ho7.2
    simp only [advance]
    refine ⟨by rw [e1, hl], ?_⟩
    rw [e2, hl, ho]
    repeat' split
    all_goals omega

/-- C62. Whatever the calls of `next` gave, after `k` of them the size hint is the number of grid points less `k` (and never
less than 0) below eight grid points; from eight points on it is the number of grid points less the remainder of `k` by
eight.  Asking for it never panics. -/
theorem C62_hint (c : Codecs F) (t : Decoder) (it : BitmapIter F) (h : t.dispatch c = .ok it) (k : Nat) {ε : Type} :
    ((advance c.ops k it).sizeHint : Outcome ε Nat) =
      .ok (if t.numPointsTotal < 8 then t.numPointsTotal - k else t.numPointsTotal - k % 8) := by
  have hit : it.offset = 0 ∧ it.len = t.numPointsTotal := by
    unfold Decoder.dispatch at h
    cases hv : t.decodeValues c with
    | ok items =>
      rw [hv, Outcome.bind_ok, BitmapIter.new] at h
      split at h
      · cases h
      · cases h; exact ⟨rfl, rfl⟩
    | err e => rw [hv] at h; cases h
    | panic => rw [hv] at h; cases h
  obtain ⟨e1, e2⟩ := advance_offset c.ops k it (by omega) (by omega)
  unfold BitmapIter.sizeHint
  rw [e1, e2, hit.1, hit.2]
  split <;> rw [if_neg (by omega)] <;> congr 1 <;> omega

example : ∃ it, sampleTen.dispatch exactCodecs = .ok it ∧
    ((advance exactCodecs.ops 3 it).sizeHint : Outcome Unit Nat) = .ok 7 := by
  obtain ⟨it, h1, -⟩ := Outcome.exists_of_ok? (x := sampleTen.dispatch exactCodecs)
    (f := fun it : BitmapIter (Option Rat) => it.len) (b := 10) (by decide +kernel)
  exact ⟨it, h1, C62_hint exactCodecs sampleTen it h1 3⟩

/-- C62. The iterator is not fused: with too few values, a call may give an item after one that gave none. -/
theorem C62_not_fused : ∃ (t : Decoder) (it : BitmapIter (Option Rat)), t.dispatch exactCodecs = .ok it ∧
    ((advance exactCodecs.ops 1 it).next exactCodecs.ops).1 = .ok none ∧
    ((advance exactCodecs.ops 2 it).next exactCodecs.ops).1 = .ok (some none) := by
  obtain ⟨it, h1, h2⟩ := Outcome.exists_of_ok?
    (x := ({ sampleTen with bitmap := [0b11000000, 0], sect7 := [1] } : Decoder).dispatch exactCodecs)
    (f := fun it : BitmapIter (Option Rat) => (((advance exactCodecs.ops 1 it).next exactCodecs.ops).1,
      ((advance exactCodecs.ops 2 it).next exactCodecs.ops).1))
    (b := (.ok none, .ok (some none))) (by decide +kernel)
  simp only [Prod.mk.injEq] at h2
  exact ⟨_, it, h1, h2.1, h2.2⟩

end Grib.Props
