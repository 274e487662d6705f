import Verif.Lemmas.Bitmap
import Verif.Lemmas.FromSub
import Verif.Props.Simple
import Verif.Props.Listing

/-! # C22, C23, C24: bitmaps and the number of decoded values -/

namespace Grib.Model

open Grib.Spec

variable {F : Type}

/-- Which value a point gets: the one with as many ones before it. -/
theorem distribute_getElem {α : Type} {bs : List Bool} {vs : List α} {pts : List (Option α)}
    (h : distribute bs vs = some pts) (k : Nat) (hk : k < bs.length) :
    pts[k]? = some (if bs[k] then vs[(bs.take k).countP id]? else none) ∧
    (bs[k] = true → (bs.take k).countP id < vs.length) := by
  induction bs generalizing vs pts k with
  | nil => simp at hk
  | cons b bs ih =>
    cases b with
    | false =>
      simp only [distribute, Option.map_eq_some_iff] at h
      obtain ⟨p, hp, rfl⟩ := h
      cases k with
      | zero => simp
      | succ k => simpa using ih hp k (by simpa using hk)
    | true =>
      cases vs with
      | nil => simp [distribute] at h
      | cons v vs =>
        simp only [distribute, Option.map_eq_some_iff] at h
        obtain ⟨p, hp, rfl⟩ := h
        cases k with
        | zero => simp
        | succ k => simpa using ih hp k (by simpa using hk)

theorem dispatch_ok (c : Codecs F) (t : Decoder) (items : Items F) (h : t.decodeValues c = .ok items)
    (hl : t.numPointsTotal ≤ 8 * t.bitmap.length) :
    t.dispatch c = .ok ⟨t.bitmap, items, t.numPointsTotal, 0⟩ := by
  unfold Decoder.dispatch
  rw [h, Outcome.bind_ok, BitmapIter.new, if_neg (by omega)]

/-- The bits an iterator for `total` points goes through. -/
theorem effective_prefix (bitmap : List UInt8) (total : Nat) :
    ∃ rest, (if total < 8 then (bits bitmap).take total else bits bitmap) = (bits bitmap).take total ++ rest ∧
      (total < 8 → rest = []) := by
  by_cases h : total < 8
  · exact ⟨[], by simp [h], fun _ => rfl⟩
  · exact ⟨(bits bitmap).drop total, by simp [h], fun h' => absurd h' h⟩

end Grib.Model

namespace Grib.Props

open Grib.Model Grib.Spec

variable {F : Type}

/-! ## C23 -/

/-- C23. Let the data section decode to the values `vs`.  If the bitmap has a bit for every one of the `total` grid points
and there is a value for every bit that is 1, then decoding succeeds, and for every point `k`: the decoded item `k` is
NaN if bit `k` is 0, otherwise it is the value whose index is the number of ones before bit `k`. -/
theorem C23_points (c : Codecs F) (t : Decoder) (vs : List F) (hv : t.decodeValues c = .ok (vs.map .ok))
    (hbits : t.numPointsTotal ≤ 8 * t.bitmap.length)
    (henough : ((bits t.bitmap).take t.numPointsTotal).count true ≤ vs.length) :
    ∃ it out, t.dispatch c = .ok it ∧ it.toList c.ops = .done out ∧ t.numPointsTotal ≤ out.length ∧
      ∀ k < t.numPointsTotal,
        ((bits t.bitmap)[k]? = some false → out[k]? = some c.ops.nan) ∧
        ((bits t.bitmap)[k]? = some true → ((bits t.bitmap).take k).count true < vs.length ∧
          out[k]? = vs[((bits t.bitmap).take k).count true]?) := by
  have hcount : ∀ l : List Bool, l.countP id = l.count true := by
    intro l; unfold List.count; congr 1; funext b; cases b <;> rfl
  have hs : (distribute ((bits t.bitmap).take t.numPointsTotal) vs).isSome := by
    rw [distribute_isSome, hcount]; simpa using henough
  obtain ⟨pts, hpts⟩ := Option.isSome_iff_exists.mp hs
  obtain ⟨rest, hrest, -⟩ := effective_prefix t.bitmap t.numPointsTotal
  obtain ⟨more, hm, -⟩ := spread_prefix c.ops (b := rest) hpts
  refine ⟨_, pts.map (·.getD c.ops.nan) ++ more, dispatch_ok c t _ hv hbits, ?_, ?_, ?_⟩
  · rw [BitmapIter.toList_eq _ _ _ _ hbits, hrest, hm]
  · have := distribute_length hpts
    simp at this
    simp; omega
  · intro k hk
    have hkl : k < ((bits t.bitmap).take t.numPointsTotal).length := by
      simp; omega
    obtain ⟨h1, h2⟩ := distribute_getElem hpts k hkl
    have hkp : k < pts.length := by rw [distribute_length hpts]; exact hkl
    have hkb : k < (bits t.bitmap).length := by simp; omega
    have e1 : ((bits t.bitmap).take t.numPointsTotal)[k] = (bits t.bitmap)[k] := by simp
    have e2 : ((bits t.bitmap).take t.numPointsTotal).take k = (bits t.bitmap).take k := by
      rw [List.take_take, Nat.min_eq_left (by omega)]
    rw [e1, e2, hcount] at h1 h2
    rw [List.getElem?_append_left (by simpa using hkp), List.getElem?_map, h1, List.getElem?_eq_getElem hkb]
    refine ⟨fun h => ?_, fun h => ?_⟩
    · have h : (bits t.bitmap)[k] = false := by simpa using h
      simp [h]
    · have h : (bits t.bitmap)[k] = true := by simpa using h
      have := h2 h
      refine ⟨this, ?_⟩
      simp [h, List.getElem?_eq_getElem this]

/-- Codecs with exact arithmetic and no image formats. -/
def exactCodecs : Codecs (Option Rat) := ⟨FloatOps.exact, fun _ => none, fun _ => .err .notSupported⟩

/-- Five points, the second and fourth missing; integers `17, 0, 31` of 5 bits. -/
def sampleMasked : Decoder := { sampleSimple with numPointsTotal := 5, bitmap := [0b10101000] }

example : sampleMasked.decodeValues exactCodecs =
      .ok ([some (23 / 40), some (3 / 20), some (37 / 40)].map .ok) ∧
    sampleMasked.numPointsTotal ≤ 8 * sampleMasked.bitmap.length ∧
    ((bits sampleMasked.bitmap).take sampleMasked.numPointsTotal).count true ≤ 3 := by decide +kernel

example : ∃ it, sampleMasked.dispatch exactCodecs = .ok it ∧
    it.toList exactCodecs.ops = .done [some (23 / 40), none, some (3 / 20), none, some (37 / 40)] :=
  Outcome.exists_of_ok? (f := fun it : BitmapIter (Option Rat) => it.toList exactCodecs.ops) (by decide +kernel)

/-- C23. A bitmap with fewer bits than there are grid points is an error. -/
theorem C23_short_bitmap (c : Codecs F) (t : Decoder) (items : Items F) (hv : t.decodeValues c = .ok items)
    (hbits : 8 * t.bitmap.length < t.numPointsTotal) : t.dispatch c = .err (.decodeError .lengthMismatch) := by
  unfold Decoder.dispatch
  rw [hv, Outcome.bind_ok, BitmapIter.new, if_pos (by omega)]

example : ({ sampleMasked with numPointsTotal := 9 } : Decoder).dispatch exactCodecs =
    .err (.decodeError .lengthMismatch) := by decide +kernel

/-- C23, limits. When there are fewer values than ones in the bitmap, decoding does not report it: it ends early, with
fewer items than grid points. -/
theorem C23_too_few_values_not_reported (c : Codecs F) (t : Decoder) (vs : List F)
    (hv : t.decodeValues c = .ok (vs.map .ok)) (hbits : t.numPointsTotal ≤ 8 * t.bitmap.length)
    (hfew : vs.length < ((bits t.bitmap).take t.numPointsTotal).count true) :
    ∃ it out, t.dispatch c = .ok it ∧ it.toList c.ops = .done out ∧ out.length < t.numPointsTotal := by
  have hcount : ∀ l : List Bool, l.countP id = l.count true := by
    intro l; unfold List.count; congr 1; funext b; cases b <;> rfl
  have hs : distribute ((bits t.bitmap).take t.numPointsTotal) vs = none := by
    have := distribute_isSome ((bits t.bitmap).take t.numPointsTotal) vs
    rw [hcount] at this
    rw [← Option.not_isSome_iff_eq_none, this]
    simp; omega
  obtain ⟨rest, hrest, -⟩ := effective_prefix t.bitmap t.numPointsTotal
  obtain ⟨out, ho, hl⟩ := spread_short c.ops (b := rest) hs
  refine ⟨_, out, dispatch_ok c t _ hv hbits, ?_, ?_⟩
  · rw [BitmapIter.toList_eq _ _ _ _ hbits, hrest, ho]
  · simpa using Nat.lt_of_lt_of_le hl (by simp; omega)

example : ∃ it, ({ sampleMasked with bitmap := [0xff] } : Decoder).dispatch exactCodecs = .ok it ∧
    it.toList exactCodecs.ops = .done [some (23 / 40), some (3 / 20), some (37 / 40)] :=
  Outcome.exists_of_ok? (f := fun it : BitmapIter (Option Rat) => it.toList exactCodecs.ops) (by decide +kernel)

/-! ## C22 -/

/-- C22 fails: nine grid points, no bitmap, integers of 4 bits (five octets hold ten of them): ten values. -/
theorem C22_padding_bits_fails : ∃ t : Decoder, t.numPointsTotal = 9 ∧ t.numPointsEncoded = 9 ∧
    t.sect7.length = (9 * 4 + 7) / 8 ∧ t.bitmap = createBitmap 9 ∧
    ∃ it out, t.dispatch exactCodecs = .ok it ∧ it.toList exactCodecs.ops = .done out ∧ out.length = 10 := by
  refine ⟨⟨9, 9, 0, [0, 0, 0, 9, 0, 0, 0, 0, 0, 0, 0, 0, 0, 0, 4, 0], createBitmap 9, [1, 2, 3, 4, 0x50]⟩, rfl, rfl, by decide,
    rfl, ?_⟩
  obtain ⟨it, h1, h2⟩ := Outcome.exists_of_ok?
    (x := (⟨9, 9, 0, [0, 0, 0, 9, 0, 0, 0, 0, 0, 0, 0, 0, 0, 0, 4, 0], createBitmap 9, [1, 2, 3, 4, 0x50]⟩ : Decoder).dispatch
      exactCodecs)
    (f := fun it => it.toList exactCodecs.ops)
    (b := .done [some 0, some 1, some 0, some 2, some 0, some 3, some 0, some 4, some 5, some 0]) (by decide +kernel)
  exact ⟨it, _, h1, h2, rfl⟩

/-- C22 fails: nine grid points with a bitmap (two octets, nine bits used): sixteen values. -/
theorem C22_bitmap_padding_fails : ∃ t : Decoder, t.numPointsTotal = 9 ∧ t.bitmap.length = 2 ∧
    ∃ it out, t.dispatch exactCodecs = .ok it ∧ it.toList exactCodecs.ops = .done out ∧ out.length = 16 := by
  refine ⟨⟨9, 1, 0, [0, 0, 0, 1, 0, 0, 0, 0, 0, 0, 0, 0, 0, 0, 8, 0], [0x80, 0], [7]⟩, rfl, rfl, ?_⟩
  obtain ⟨it, h1, h2⟩ := Outcome.exists_of_ok?
    (x := (⟨9, 1, 0, [0, 0, 0, 1, 0, 0, 0, 0, 0, 0, 0, 0, 0, 0, 8, 0], [0x80, 0], [7]⟩ : Decoder).dispatch exactCodecs)
    (f := fun it => it.toList exactCodecs.ops)
    (b := .done (some 7 :: List.replicate 15 none)) (by decide +kernel)
  exact ⟨it, _, h1, h2, by decide⟩

/-- C22, the part that holds: how many values a decoded submessage yields when the data suffice for all bits of the
bitmap.  It is the number of points for fewer than eight points, and eight times the number of octets of the bitmap
otherwise.  Missing for C22: equality with the number of points in every case, which is false. -/
theorem C22_count_partial (c : Codecs F) (t : Decoder) (vs : List F) (hv : t.decodeValues c = .ok (vs.map .ok))
    (hbits : t.numPointsTotal ≤ 8 * t.bitmap.length) (henough : (bits t.bitmap).count true ≤ vs.length) :
    ∃ it out, t.dispatch c = .ok it ∧ it.toList c.ops = .done out ∧
      out.length = if t.numPointsTotal < 8 then t.numPointsTotal else 8 * t.bitmap.length := by
  have hcount : ∀ l : List Bool, l.countP id = l.count true := by
    intro l; unfold List.count; congr 1; funext b; cases b <;> rfl
  generalize he : (if t.numPointsTotal < 8 then (bits t.bitmap).take t.numPointsTotal else bits t.bitmap) = bs
  have hc : bs.count true ≤ vs.length := by
    rw [← he]
    split
    · exact Nat.le_trans ((List.take_sublist _ _).count_le _) henough
    · exact henough
  have hs : (distribute bs vs).isSome := by
    rw [distribute_isSome, hcount]; simpa using hc
  obtain ⟨pts, hpts⟩ := Option.isSome_iff_exists.mp hs
  have h := spread_distribute c.ops (rest := []) hpts
  refine ⟨_, pts.map (·.getD c.ops.nan), dispatch_ok c t _ hv hbits, ?_, ?_⟩
  · rw [BitmapIter.toList_eq _ _ _ _ hbits, he]
    simpa using h
  · rw [List.length_map, distribute_length hpts, ← he]
    split
    · simp; omega
    · simp

example : (bits sampleMasked.bitmap).count true ≤ 3 := by decide

/-- C22, the part that holds: without a bitmap (indicator 255), and with `vs` decoded from section 7, decoding yields `vs`,
cut to the number of grid points rounded up to a multiple of 8 (not rounded below 8).  In particular it yields exactly
`vs` if there are exactly as many values as points.  Missing for C22: surplus values from padding bits are not dropped. -/
theorem C22_no_bitmap_partial (c : Codecs F) (t : Decoder) (vs : List F) (hv : t.decodeValues c = .ok (vs.map .ok))
    (hb : t.bitmap = createBitmap t.numPointsTotal) :
    ∃ it, t.dispatch c = .ok it ∧
      it.toList c.ops =
        .done (vs.take (if t.numPointsTotal < 8 then t.numPointsTotal else (t.numPointsTotal + 7) / 8 * 8)) := by
  have hl : t.numPointsTotal ≤ 8 * t.bitmap.length := by rw [hb, createBitmap_length]; omega
  refine ⟨_, dispatch_ok c t _ hv hl, ?_⟩
  rw [BitmapIter.toList_eq _ _ _ _ hl, hb, bits_createBitmap]
  split
  · rw [List.take_replicate, spread_ones, Nat.min_eq_left (by omega)]
  · rw [spread_ones, Nat.mul_comm]

/-- C22: exactly as many values as points when section 7 holds exactly one value per point and nothing is missing. -/
theorem C22_exact_values_partial (c : Codecs F) (t : Decoder) (vs : List F) (hv : t.decodeValues c = .ok (vs.map .ok))
    (hb : t.bitmap = createBitmap t.numPointsTotal) (hn : vs.length = t.numPointsTotal) :
    ∃ it, t.dispatch c = .ok it ∧ it.toList c.ops = .done vs := by
  obtain ⟨it, h1, h2⟩ := C22_no_bitmap_partial c t vs hv hb
  refine ⟨it, h1, ?_⟩
  rw [h2, List.take_of_length_le]
  split <;> omega

example : ∃ it, ({ sampleSimple with bitmap := createBitmap 3 } : Decoder).dispatch exactCodecs = .ok it ∧
    it.toList exactCodecs.ops = .done [some (23 / 40), some (3 / 20), some (37 / 40)] :=
  C22_exact_values_partial exactCodecs _ _ (by decide +kernel) (by decide) (by decide)

/-- C22: the size hint of a fresh iterator of decoded values is the number of grid points. -/
theorem C22_initial_size_hint (c : Codecs F) (t : Decoder) (it : BitmapIter F) (h : t.dispatch c = .ok it) {ε : Type} :
    (it.sizeHint : Outcome ε Nat) = .ok t.numPointsTotal := by
  unfold Decoder.dispatch at h
  cases hv : t.decodeValues c with
  | ok items =>
    rw [hv, Outcome.bind_ok, BitmapIter.new] at h
    split at h
    · cases h
    · cases h; simp [BitmapIter.sizeHint]
  | err e => rw [hv] at h; cases h
  | panic => rw [hv] at h; cases h

example : ∃ it, sampleMasked.dispatch exactCodecs = .ok it ∧ (it.sizeHint : Outcome Unit Nat) = .ok 5 :=
  Outcome.exists_of_ok? (f := fun it : BitmapIter (Option Rat) => (it.sizeHint : Outcome Unit Nat)) (by decide +kernel)

/-- Call `next` a number of times. -/
def advance (ops : FloatOps F) : Nat → BitmapIter F → BitmapIter F
  | 0, it => it
  | n + 1, it => advance ops n (it.next ops).2

/-- C22 fails: the size hint counts modulo 8; after eight of sixteen items it still says sixteen. -/
theorem C22_size_hint_fails : ∃ (t : Decoder) (it : BitmapIter (Option Rat)), t.dispatch exactCodecs = .ok it ∧
    t.numPointsTotal = 16 ∧ ((advance FloatOps.exact 8 it).sizeHint : Outcome Unit Nat) = .ok 16 ∧
    (advance FloatOps.exact 8 it).toList FloatOps.exact = .done (List.replicate 8 (some 0)) := by
  refine ⟨⟨16, 16, 0, [0, 0, 0, 16, 0, 0, 0, 0, 0, 0, 0, 0, 0, 0, 0, 0], [0xff, 0xff], []⟩, ?_⟩
  obtain ⟨it, h1, h2⟩ := Outcome.exists_of_ok?
    (x := (⟨16, 16, 0, [0, 0, 0, 16, 0, 0, 0, 0, 0, 0, 0, 0, 0, 0, 0, 0], [0xff, 0xff], []⟩ : Decoder).dispatch exactCodecs)
    (f := fun it => (((advance FloatOps.exact 8 it).sizeHint : Outcome Unit Nat),
      (advance FloatOps.exact 8 it).toList FloatOps.exact))
    (b := (.ok 16, .done (List.replicate 8 (some 0)))) (by decide +kernel)
  simp only [Prod.mk.injEq] at h2
  exact ⟨it, h1, by decide, h2.1, h2.2⟩

/-! ## C24 -/

/-- C24. For a submessage listed by an opened file and any state of the reader, the bitmap indicator (octet 6 of its
section 6) decides: 0 takes the octets of section 6 after the indicator, 255 takes ones for all of the grid points of
section 3, any other value is an error. -/
theorem C24_indicator {r0 : Rdr} {g : Grib2} (h : Grib2.read r0 = .ok g) {ix : Nat × Nat} {m : SubMessage}
    (hm : (ix, m) ∈ SubIter.drain (g.len + 1) g.iter) (r : Rdr) (hr : r.data = r0.data) (hb : IoEv.fail ∉ r.evs) :
    (field r0.data m.s6.2.offset 6 6 = 0 → ∃ d, (Decoder.fromSub m r).1 = .ok d ∧
      d.bitmap = (payloadAt r0.data m.s6.2.offset m.s6.2.size).drop 1) ∧
    (field r0.data m.s6.2.offset 6 6 = 255 → ∃ d, (Decoder.fromSub m r).1 = .ok d ∧
      (∀ b ∈ bits d.bitmap, b = true) ∧ field r0.data m.s3.2.offset 7 10 ≤ (bits d.bitmap).length) ∧
    (field r0.data m.s6.2.offset 6 6 ≠ 0 → field r0.data m.s6.2.offset 6 6 ≠ 255 →
      (Decoder.fromSub m r).1 = .err (.decodeError .bitMapIndicatorUnsupported)) := by
  obtain ⟨-, -, hd⟩ := fromSub_opened h hm r hr hb
  rw [hd]
  refine ⟨fun h0 => ?_, fun h1 => ?_, fun h0 h1 => ?_⟩
  · simp only [h0, if_true]
    exact ⟨_, rfl, rfl⟩
  · simp only [h1, show (255 : Nat) ≠ 0 by decide, if_false, if_true]
    refine ⟨_, rfl, ?_, ?_⟩
    · simp only [bits_createBitmap, decoderAt]
      intro b hb
      exact List.eq_of_mem_replicate hb
    · simp only [bits_length, createBitmap_length, decoderAt]; omega
  · simp only [h0, h1, if_false]

end Grib.Props
