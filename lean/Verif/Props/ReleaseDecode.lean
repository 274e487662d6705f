import Verif.Lemmas.ReleaseValues
import Verif.Props.ReleaseOpen
import Verif.Props.DecodeOutcome
import Verif.Props.Count

/-! # C83: decoding with a release build

`decodeAll` and `decodeSub` (C69) are decoding in a debug build, `relDecodeAll` and `relDecodeSub` in a release build, where
integer arithmetic wraps around (`Model/ReleaseDecode.lean`). -/

namespace Grib.Props

open Grib.Model Grib.Spec

variable {F : Type}

/-- Choosing the decoder and pulling all points, in a release build. -/
def relDecodeAll (c : Codecs F) (t : Decoder) : Outcome GribError (Drained F) := do
  let it ← Rel.dispatch c t
  .ok (it.toList c.ops)

/-- Reading the sections of a submessage and decoding it, in a release build. -/
def relDecodeSub (c : Codecs F) (m : SubMessage) (r : Rdr) : Outcome GribError (Drained F) := do
  let d ← (Rel.fromSub m r).1
  relDecodeAll c d

/-- C83. Where a debug build does not panic, neither on the call nor while the points are pulled, a release build gives the
same points or the same error. -/
theorem C83_same (c : Codecs F) (t : Decoder) (h1 : decodeAll c t ≠ .panic) (h2 : decodeAll c t ≠ .ok .panic) :
    relDecodeAll c t = decodeAll c t := by
  unfold decodeAll at *
  unfold relDecodeAll
  rcases Rel.dispatch_bext c t with h | ⟨e, h, h'⟩ | ⟨a, b, h, h', hb⟩
  · rw [h] at h1; exact absurd rfl h1
  · rw [h, h']
  · rw [h] at h2 ⊢
    rw [h']
    simp only [Outcome.bind_ok] at h2 ⊢
    rcases Rel.toList_bext c.ops hb with h3 | h3
    · rw [h3] at h2; exact absurd rfl h2
    · rw [h3]

/-- C83. The points a debug build delivers before it panics are delivered by a release build as well: whenever the first
`n` points come without a panic, they are the same. -/
theorem C83_points_before_panic (c : Codecs F) (t : Decoder) {a : BitmapIter F} (h : t.dispatch c = .ok a) :
    ∃ b, Rel.dispatch c t = .ok b ∧ ∀ n, a.drain c.ops n ≠ .panic → b.drain c.ops n = a.drain c.ops n := by
  rcases Rel.dispatch_bext c t with h' | ⟨e, h', -⟩ | ⟨a', b, h1, h2, hb⟩
  · rw [h] at h'; cases h'
  · rw [h] at h'; cases h'
  · rw [h] at h1
    obtain rfl := Outcome.ok.inj h1
    exact ⟨b, h2, fun n hn => (Rel.drain_bext c.ops n hb).resolve_left hn⟩

/-- Reading the sections of a listed submessage is the same in both builds. -/
theorem opened_fromSub {r0 : Rdr} {g : Grib2} (h : Grib2.read r0 = .ok g) (hl : r0.data.length < 2 ^ 63) {ix : Nat × Nat}
    {m : SubMessage} (hm : (ix, m) ∈ SubIter.drain (g.len + 1) g.iter) (r : Rdr) : Rel.fromSub m r = Decoder.fromSub m r := by
  obtain ⟨-, -, -, -, -, hk⟩ := C17_accessors r0 g h ix m hm (ε := Unit)
  apply Rel.fromSub_eq
  intro s hs
  have key : ∀ (x : Nat × SectionInfo) (k : Nat),
      (x, k) ∈ [(m.s0, 0), (m.s1, 1), (m.s3, 3), (m.s4, 4), (m.s5, 5), (m.s6, 6), (m.s7, 7)] → 1 ≤ k → k ≤ 7 →
      5 ≤ x.2.size ∧ x.2.size < 2 ^ 63 ∧ x.2.offset + 5 < 2 ^ 64 := by
    intro x k hx k1 k7
    have q := hk (x, k) hx
    have hn : x.2.num = k := q.1
    have w := opened_whole h _ (List.mem_of_getElem? q.2.1)
    have hh := q.2.2.header (by omega) (by omega)
    simp only at w hh
    omega
  simp only [List.mem_cons, List.not_mem_nil, or_false] at hs
  rcases hs with rfl | rfl | rfl
  · exact key m.s5 5 (by simp) (by omega) (by omega)
  · exact key m.s6 6 (by simp) (by omega) (by omega)
  · exact key m.s7 7 (by simp) (by omega) (by omega)

/-- C83, the whole way. A file that a debug build opens: a release build opens it with the same submessages, and decoding any
of them gives the same, with the reader in any state (failures included), unless the debug build panics. -/
theorem C83_submessage {r0 : Rdr} (hl : r0.data.length < 2 ^ 63) {g : Grib2} (h : Grib2.read r0 = .ok g) :
    Rel.read r0 = .ok g ∧
    ∀ (ix : Nat × Nat) (m : SubMessage), (ix, m) ∈ SubIter.drain (g.len + 1) g.iter →
    ∀ (r : Rdr) (c : Codecs F), decodeSub c m r ≠ .panic → decodeSub c m r ≠ .ok .panic →
      relDecodeSub c m r = decodeSub c m r := by
  refine ⟨?_, ?_⟩
  · rw [C82_same r0 hl (by rw [h]; exact fun h => by cases h), h]
  · intro ix m hm r c h1 h2
    unfold relDecodeSub
    unfold decodeSub at h1 h2 ⊢
    rw [opened_fromSub h hl hm]
    cases hd : (Decoder.fromSub m r).1 with
    | ok d =>
      rw [hd] at h1 h2
      exact C83_same c d h1 h2
    | err e => rfl
    | panic => rfl

/-! ## Where a debug build panics -/

/-- C83, template 5.2. Only the sizes have to fit (`Rel.Fits`), not the sums: every value is the one of the layout, reduced
modulo 2^32 to a 32-bit integer, and put through the formula. -/
theorem C83_values (ops : FloatOps F) (t : Decoder) (h5 : ComplexOk t.sect5) (hc : Rel.Fits (layout2 t)) :
    Rel.complexDecode2 ops t =
      .ok (((layout2 t).values 0).map fun v => .ok (pointValue ops t.sect5 (Rel.wrapValue v))) := by
  have := h5.length
  unfold Rel.complexDecode2
  rw [fromSect5_eq ops (by omega), if_neg (by simpa using h5.type), Outcome.bind_ok, complexParam_eq h5.length, Outcome.bind_ok]
  simp only
  rw [if_neg (by have := h5.splitting; have := h5.missing; omega)]
  have := Rel.decodeComplexPacking_wrapped (ε := GribError) (layout2 t) 0 hc (Rel.number4_lt' _ _)
  unfold layout2 complexTemplate bitsPerValue at this
  simp only at this
  rw [this, Outcome.bind_ok]
  congr 1
  have e := unpackAll_decoded ops t.sect5 (sectNumber t.sect5 20 20) (((layout2 t).values 0).map Rel.wrapValue)
  rw [List.map_map, List.map_map] at e
  exact e

theorem rel_complexDecode3_eq (ops : FloatOps F) (t : Decoder) (h5 : DiffOk t.sect5) (hc : Rel.Fits (layout3 t)) :
    Rel.complexDecode3 ops t = .ok (SimpleParam.unpackAll ops
      ⟨ops.ofBits (sectNumber t.sect5 12 15), sectSigned t.sect5 16 17, sectSigned t.sect5 18 19, sectNumber t.sect5 20 20⟩
      (DecodedValue.toF32 ops)
      (let items := ((layout3 t).values (descriptor t (diffOrder t.sect5))).map fun v => .ok (Rel.wrapValue v)
       let first := (List.range (diffOrder t.sect5)).map (descriptor t)
       if diffOrder t.sect5 = 1 then stepItems Rel.diff1Step { firstValues := first } items
       else stepItems Rel.diff2Step { firstValues := first } items)) := by
  have := h5.length
  have hwhole : (diffOrder t.sect5 + 1) * diffOctets t.sect5 ≤ t.sect7.length := by
    have h := hc.whole
    have h1 : (layout3 t).start ≤ (layout3 t).dataAt := by
      unfold Layout.dataAt Layout.lensAt Layout.widthsAt; omega
    unfold Layout.groupAt at h
    have : 8 * (layout3 t).start ≤ 8 * t.sect7.length := Nat.le_trans (by omega) h
    have e : (layout3 t).start = (diffOrder t.sect5 + 1) * diffOctets t.sect5 := rfl
    omega
  obtain ⟨d, d1, d2, d3, d4⟩ := descriptors_eq (ε := GribError) h5.octets.1 h5.octets.2 hwhole
  have e48 : number t.sect5 42 1 = diffOrder t.sect5 := rfl
  have e49 : number t.sect5 43 1 = diffOctets t.sect5 := rfl
  unfold Rel.complexDecode3
  rw [fromSect5_eq ops (by omega), if_neg (by simpa using h5.complex.type), Outcome.bind_ok, complexParam_eq h5.complex.length,
    Outcome.bind_ok]
  simp only
  rw [rdAs_number (by omega), rdAs_number (by omega), e48, e49]
  simp only [Outcome.bind_ok]
  rw [if_neg (by have := h5.order; omega),
    if_neg (by have := h5.complex.splitting; have := h5.complex.missing; have := h5.order; omega), d1]
  simp only [Outcome.bind_ok]
  rw [d3, d4, d2]
  simp only [Outcome.bind_ok]
  have := Rel.decodeComplexPacking_wrapped (ε := GribError) (layout3 t) (descriptor t (diffOrder t.sect5)) hc (Rel.number4_lt' _ _)
  unfold layout3 complexTemplate bitsPerValue at this
  simp only at this
  have hm : leading t.sect7 (diffOctets t.sect5) (diffOrder t.sect5) = descriptor t (diffOrder t.sect5) := rfl
  rw [hm, this, Outcome.bind_ok]
  rfl

/-- C83, template 5.3, order 1. Every sequence of 32-bit integers comes back, with missing points anywhere; the differences
need to be right modulo 2^32 only. -/
theorem C83_order1 (ops : FloatOps F) (t : Decoder) (h5 : DiffOk t.sect5) (ho : diffOrder t.sect5 = 1)
    (hc : Rel.Fits (layout3 t)) (xs : List DecodedValue) (hr : ∀ x ∈ normals xs, -2 ^ 31 ≤ x ∧ x < 2 ^ 31)
    (hf : ∀ x, (normals xs)[0]? = some x → descriptor t 0 = x) (fill : Int)
    (hd : ((layout3 t).values (descriptor t 1)).map Rel.wrapValue = (diff1 fill none xs).map Rel.wrapValue) :
    Rel.complexDecode3 ops t = .ok (xs.map fun v => .ok (pointValue ops t.sect5 v)) := by
  rw [rel_complexDecode3_eq ops t h5 hc, ho]
  simp only [if_true]
  congr 1
  have e : (((layout3 t).values (descriptor t 1)).map fun v => (.ok (Rel.wrapValue v) : Pull DecodedValue)) =
      (diff1 fill none xs).map fun v => .ok (Rel.wrapValue v) := by
    have := congrArg (List.map (Outcome.ok (ε := Empty))) hd
    rw [List.map_map, List.map_map] at this
    exact this
  rw [e, Rel.stepItems_diff1_wrapped fill xs hr _ none (.inl ⟨rfl, rfl, ?_⟩)]
  · exact unpackAll_decoded ops t.sect5 _ _
  · intro x hx
    rw [← hf x (by rw [← hx, List.head?_eq_getElem?])]; rfl

/-- C83, template 5.3, order 2. Every sequence of 32-bit integers, not only those whose doubles are 32-bit integers (a debug
build panics on the others: `C29_order2_bound`). -/
theorem C83_order2 (ops : FloatOps F) (t : Decoder) (h5 : DiffOk t.sect5) (ho : diffOrder t.sect5 = 2)
    (hc : Rel.Fits (layout3 t)) (xs : List DecodedValue) (hr : ∀ x ∈ normals xs, -2 ^ 31 ≤ x ∧ x < 2 ^ 31)
    (hf0 : ∀ x, (normals xs)[0]? = some x → descriptor t 0 = x) (hf1 : ∀ x, (normals xs)[1]? = some x → descriptor t 1 = x)
    (fill fill' : Int)
    (hd : ((layout3 t).values (descriptor t 2)).map Rel.wrapValue = (diff2 fill fill' [] xs).map Rel.wrapValue) :
    Rel.complexDecode3 ops t = .ok (xs.map fun v => .ok (pointValue ops t.sect5 v)) := by
  rw [rel_complexDecode3_eq ops t h5 hc, ho]
  simp only [show ¬ (2 = 1) by decide, if_false]
  congr 1
  have e : (((layout3 t).values (descriptor t 2)).map fun v => (.ok (Rel.wrapValue v) : Pull DecodedValue)) =
      (diff2 fill fill' [] xs).map fun v => .ok (Rel.wrapValue v) := by
    have := congrArg (List.map (Outcome.ok (ε := Empty))) hd
    rw [List.map_map, List.map_map] at this
    exact this
  rw [e, Rel.stepItems_diff2_wrapped fill fill' xs _ [] hr (.inl ⟨rfl, rfl, ?_⟩)]
  · exact unpackAll_decoded ops t.sect5 _ _
  · intro k hk x hx
    match k, hk with
    | 0, _ => rw [← hf0 x hx]; rfl
    | 1, _ => rw [← hf1 x hx]; rfl

/-- C83. Template 5.2 without any group: no values at all, where a debug build panics (`C27_no_groups_panics`). -/
theorem C83_no_groups (ops : FloatOps F) (t : Decoder) (h5 : ComplexOk t.sect5) (h0 : sectNumber t.sect5 32 35 = 0)
    (hn : 1 ≤ sectNumber t.sect5 47 47) : complexDecode2 ops t = .panic ∧ Rel.complexDecode2 ops t = .ok [] := by
  refine ⟨C27_no_groups_panics ops t h5 h0, ?_⟩
  have := h5.length
  unfold Rel.complexDecode2
  rw [fromSect5_eq ops (by omega), if_neg (by simpa using h5.type), Outcome.bind_ok, complexParam_eq h5.length, Outcome.bind_ok]
  simp only
  rw [if_neg (by have := h5.splitting; have := h5.missing; omega), h0]
  have e : ∀ n, Rel.getOctetLength n 0 = 0 := by
    intro n; unfold Rel.getOctetLength; simp
  have b : ∀ d n, bitStreamTake d n 0 = some [] := by
    intro d n; unfold bitStreamTake; split <;> rfl
  have b' : ∃ xs, bitStreamTake [] (sectNumber t.sect5 47 47) ((0 + 2 ^ 32 - 1) % 2 ^ 32) = some xs := by
    unfold bitStreamTake
    rw [if_neg (by omega)]
    exact ⟨_, NBit.takeList_spec _ _ (by simp [NBit.new]) (by simp [NBit.new]; omega)⟩
  obtain ⟨xs, b'⟩ := b'
  unfold Rel.decodeComplexPacking
  simp only [e, Outcome.bind_ok, b, Outcome.ofOption_some, Nat.add_zero]
  rw [sliceTo_eq (Nat.le_refl 0) (Nat.zero_le _)]
  simp only [Outcome.bind_ok, Nat.sub_self, List.take_zero, b', Outcome.ofOption_some]
  rw [sliceTo_eq (Nat.zero_le _) (Nat.le_refl _)]
  simp only [Outcome.bind_ok]
  unfold Rel.groupItems
  rfl

/-- One group of three equal values, references of `nbit` bits; missing-value management `mvm`, width `w`. -/
def oneGroup5 (nbit mvm w len order octets : UInt8) : List UInt8 :=
  [0, 0, 0, 3, 0, 0, 0, 0, 0, 0, 0, 0, 0, 0, nbit, 0, 1, mvm, 0xff, 0xff, 0xff, 0xff, 0xff, 0xff, 0xff, 0xff, 0, 0, 0, 1,
    w, 0, 0, 0, 0, 1, 1, 0, 0, 0, len, 1, order, octets]

/-- The second-order differences of `2^30, 2^30, 2^30`. -/
def doubled : Decoder :=
  ⟨3, 3, 3, oneGroup5 1 0 0 3 2 4, [0xe0], [0x40, 0, 0, 0] ++ [0x40, 0, 0, 0] ++ [0, 0, 0, 0] ++ [0, 0]⟩

theorem doubled_fits : Rel.Fits (layout3 doubled) := by
  constructor <;> first | decide +kernel | (intro g hg; obtain rfl : g = 0 := (by have : g < 1 := hg; omega); decide +kernel)

/-- C83: a debug build panics at the third of these values, a release build delivers it. -/
theorem C83_doubles : complexDecode3 FloatOps.exact doubled = .ok [.ok (some (2 ^ 30)), .ok (some (2 ^ 30)), .panic] ∧
    Rel.complexDecode3 FloatOps.exact doubled = .ok [.ok (some (2 ^ 30)), .ok (some (2 ^ 30)), .ok (some (2 ^ 30))] := by
  decide +kernel

example : Rel.complexDecode3 FloatOps.exact doubled = .ok ((List.replicate 3 (DecodedValue.normal (2 ^ 30))).map fun v =>
    .ok (pointValue FloatOps.exact doubled.sect5 v)) :=
  C83_order2 _ doubled ⟨⟨by decide, by decide, by decide, by decide⟩, by decide, by decide, by decide⟩ (by decide +kernel) doubled_fits _
    (by decide) (by intro x hx; simp [normals] at hx; subst hx; decide +kernel)
    (by intro x hx; simp [normals] at hx; subst hx; decide +kernel) 0 0 (by decide +kernel)

/-- `-(2^31 - 1)` and `2^31 - 1`: their difference, `2^32 - 2`, is `-2` modulo `2^32`. -/
def farApart : Decoder := ⟨2, 2, 3, oneGroup5 1 0 0 2 1 4, [0xc0], [0xff, 0xff, 0xff, 0xff] ++ [0x80, 0, 0, 2] ++ [0, 0]⟩

theorem farApart_fits : Rel.Fits (layout3 farApart) := by
  constructor <;> first | decide +kernel | (intro g hg; obtain rfl : g = 0 := (by have : g < 1 := hg; omega); decide +kernel)

example : Rel.complexDecode3 FloatOps.exact farApart =
    .ok ([DecodedValue.normal (-2147483647), .normal 2147483647].map fun v => .ok (pointValue FloatOps.exact farApart.sect5 v)) :=
  C83_order1 _ farApart ⟨⟨by decide, by decide, by decide, by decide⟩, by decide, by decide, by decide⟩ (by decide +kernel) farApart_fits _
    (by decide) (by intro x hx; simp [normals] at hx; subst hx; decide +kernel) (-2) (by decide +kernel)

example : complexDecode3 FloatOps.exact farApart = .ok [.ok (some (-2147483647)), .panic] := by decide +kernel

/-- References of 32 bits, two values of width `w`. -/
def wide (mvm w : UInt8) (data : List UInt8) : Decoder := ⟨2, 2, 2, oneGroup5 32 mvm w 2 0 0, [0xc0], [0, 0, 0, 0, 0] ++ data⟩

/-- C83: with missing values in use, a release build takes the reference 0 of 32 bits of a constant group for missing, and
the number 0 of a group of width 32; a debug build panics on both. -/
theorem C83_zero_missing_fails :
    (decodeAll exactCodecs (wide 1 0 []) = .ok .panic ∧ relDecodeAll exactCodecs (wide 1 0 []) = .ok (.done [none, none])) ∧
    relDecodeAll exactCodecs (wide 0 0 []) = .ok (.done [some 0, some 0]) ∧
    (decodeAll exactCodecs (wide 1 32 [0, 0, 0, 0, 0, 0, 0, 5]) = .ok .panic ∧
      relDecodeAll exactCodecs (wide 1 32 [0, 0, 0, 0, 0, 0, 0, 5]) = .ok (.done [none, some 5])) := by
  decide +kernel

/-- C83: run lengths of 16 bits, on which a debug build panics. A release build works with a base one too large: two more
twos and then 65280 of them (base `2^16 - 1 - 255`), packed according to the manual (C25), are unpacked as 65284 twos. -/
theorem C83_sixteen_bits_fails :
    expandRuns 65280 [⟨2, [2, 1]⟩] = List.replicate 65283 2 ∧
    packInts 16 (runSymbols 255 [⟨2, [2, 1]⟩]) = [0, 2, 1, 2, 1, 1] ∧
    rleunpack [0, 2, 1, 2, 1, 1] 16 255 65283 = .panic ∧
    Rel.rleunpack [0, 2, 1, 2, 1, 1] 16 255 65283 = .err .lengthMismatch ∧
    Rel.rleunpack [0, 2, 1, 2, 1, 1] 16 255 65284 = .ok (List.replicate 65284 2) := by
  have hd : (NBit.new [0, 2, 1, 2, 1, 1] 16).drain (8 * [(0 : UInt8), 2, 1, 2, 1, 1].length + 1) = .done [2, 258, 257] := by
    decide +kernel
  have hloop : Rel.rleLoop 256 65281 [2, 258, 257] [] none 1 = .ok (List.replicate 65284 2) := by
    rw [Rel.rleLoop]
    simp only [Nat.reducePow, Nat.reduceMod, Nat.reduceLT, gt_iff_lt, if_true, List.length_nil, ge_iff_le, Nat.reduceAdd,
      Nat.reduceLeDiff, if_false, List.nil_append]
    rw [Rel.rleLoop]
    simp only [Nat.reducePow, Nat.reduceMod, Nat.reduceLT, gt_iff_lt, if_false, List.length_cons, List.length_nil, ge_iff_le,
      Nat.reduceAdd, Nat.reduceSub, Nat.reduceMul, USIZE, Nat.reduceLeDiff]
    rw [Rel.rleLoop]
    simp only [Nat.reducePow, Nat.reduceMod, Nat.reduceLT, gt_iff_lt, if_false, List.length_cons, List.length_nil, ge_iff_le,
      Nat.reduceAdd, Nat.reduceSub, Nat.reduceMul, USIZE, Nat.reduceLeDiff, List.length_append, List.length_replicate]
    rw [Rel.rleLoop]
    have h1 : ([2] : List Nat) = List.replicate 1 2 := rfl
    rw [h1, List.replicate_append_replicate, List.replicate_append_replicate]
  have hu : ∀ n, Rel.rleunpack [0, 2, 1, 2, 1, 1] 16 255 n =
      if n ≠ 65284 then .err .lengthMismatch else .ok (List.replicate 65284 2) := by
    intro n
    unfold Rel.rleunpack Rel.rleunpackFuel
    rw [hd]
    have e : (2 ^ (16 % 16) + 2 ^ 16 - (255 + 1) % 2 ^ 16) % 2 ^ 16 = 65281 := by decide
    have e' : (255 + 1) % 2 ^ 16 = 256 := by decide
    simp only [e, e', hloop, Outcome.bind_ok, List.length_replicate]
  refine ⟨?_, by decide +kernel, ?_, ?_, ?_⟩
  · have e : Run.length 65280 ⟨2, [2, 1]⟩ = 65283 := by decide +kernel
    unfold expandRuns
    rw [List.flatMap_cons, List.flatMap_nil, List.append_nil, e]
  · decide +kernel
  · rw [hu, if_pos (by decide)]
  · rw [hu, if_neg (by decide)]

/-- C83: the greatest maximum, 65535, wraps to the base 0, and every non-empty section is refused. -/
theorem C83_greatest_maximum (input : List UInt8) (nbit expected : Nat) (hn : 1 ≤ nbit) (hi : nbit ≤ 8 * input.length) :
    Rel.rleunpack input nbit 65535 expected = .err .invalidFirstValue := by
  have hq : 1 ≤ 8 * input.length / nbit := (Nat.le_div_iff_mul_le (by omega)).mpr (by omega)
  have hd := NBit.drain_spec (8 * input.length + 1) (NBit.new input nbit) (by simp [NBit.new]) hn (by
    simp only [NBit.new, NBit.bitPos]
    have : (8 * input.length - (8 * 0 + 0)) / nbit ≤ 8 * input.length - (8 * 0 + 0) := Nat.div_le_self _ _
    omega)
  have hz : (8 * (NBit.new input nbit).data.length - (NBit.new input nbit).bitPos) / (NBit.new input nbit).size =
      8 * input.length / nbit := by simp [NBit.new, NBit.bitPos]
  rw [hz] at hd
  obtain ⟨n, hqn⟩ : ∃ n, 8 * input.length / nbit = n + 1 := ⟨_, (Nat.sub_add_cancel hq).symm⟩
  obtain ⟨x, xs, hx⟩ : ∃ x xs, (NBit.new input nbit).fields (8 * input.length / nbit) = x :: xs := by
    unfold NBit.fields
    rw [hqn, List.range_succ_eq_map, List.map_cons]
    exact ⟨_, _, rfl⟩
  unfold Rel.rleunpack Rel.rleunpackFuel
  rw [hd, hx]
  have e : (65535 + 1) % 2 ^ 16 = 0 := by decide
  simp only [e]
  unfold Rel.rleLoop
  dsimp only
  rw [if_neg (by omega)]
  rfl

/-- C83: with zero bits per number and a non-empty section 7, decoding never ends, for every maximum below 65535. -/
theorem C83_never_ends (input : List UInt8) (h : input ≠ []) (maxv expected fuel : Nat) (hm : maxv < 65535) (hf : fuel < 2 ^ 62) :
    Rel.rleunpackFuel fuel input 0 maxv expected = none := by
  have hloop : ∀ n (out : List Nat) cached exp lngu, out.length + n < 2 ^ 62 →
      Rel.rleLoop (maxv + 1) lngu (List.replicate n 0) out cached exp = .ok (out ++ List.replicate n 0) := by
    intro n
    induction n with
    | zero => intro out cached exp lngu _; simp [Rel.rleLoop]
    | succ n ih =>
      intro out cached exp lngu hl
      rw [List.replicate_succ]
      unfold Rel.rleLoop
      dsimp only
      rw [if_pos (by simp), if_neg (by omega), ih _ _ _ _ (by simp; omega)]
      simp [List.append_assoc]
  unfold Rel.rleunpackFuel
  rw [C02_width_zero_never_ends input h]
  have e : (maxv + 1) % 2 ^ 16 = maxv + 1 := Nat.mod_eq_of_lt (by omega)
  simp only [e]
  rw [hloop fuel [] none 1 _ (by simpa using hf)]

/-- The submessages of an opened file, as decoded by a release build. -/
def relDecodeSubAt (g : Grib2) (k : Nat) : Option (Outcome GribError (Drained (Option Rat))) :=
  (SubIter.drain (g.len + 1) g.iter)[k]?.map fun x => relDecodeSub exactCodecs x.2 g.reader

theorem short_slice (s : SectionInfo) (hs : s.size < 5) (r : Rdr) (d : List UInt8) : (Rel.readSectPayloadAsSlice s r).1 ≠ .ok d := by
  have e : Rel.usub s.size 5 ≥ 2 ^ 63 := by
    unfold Rel.usub USIZE
    rw [if_neg (by omega)]
    omega
  show (RM.bind (rdSeekStart _) (fun _ => Rel.allocReadExact (Rel.usub s.size 5)) r).1 ≠ _
  unfold RM.bind
  rcases h : rdSeekStart (Rel.uadd s.offset 5) r with ⟨o, r'⟩
  cases o with
  | ok u =>
    dsimp only
    unfold Rel.allocReadExact
    rw [if_pos e]
    exact fun h => by cases h
  | err e => exact fun h => by cases h
  | panic => exact fun h => by cases h

/-- C83: a section 7 whose stated length is below 5, which only a release build accepts (`C82_overlap`), never decodes. -/
theorem C83_short_section7 (c : Codecs F) (m : SubMessage) (hs : m.s7.2.size < 5) (r : Rdr) (d : Drained F) :
    relDecodeSub c m r ≠ .ok d := by
  have key : ∀ t, (Rel.fromSub m r).1 ≠ .ok t := by
    intro t ht
    unfold Rel.fromSub at ht
    dsimp only at ht
    have hl : ∀ (r2 : Rdr) (d : List UInt8) (r3 : Rdr), ((Rel.readSectPayloadAsSlice m.s7.2 r2).1.mapErr GribError.parseError,
        (Rel.readSectPayloadAsSlice m.s7.2 r2).2) ≠ (Outcome.ok d, r3) := by
      intro r2 d r3 h
      have h1 := congrArg Prod.fst h
      have := short_slice m.s7.2 hs r2
      cases hq : (Rel.readSectPayloadAsSlice m.s7.2 r2).1 with
      | ok d' => exact this d' hq
      | err e => rw [hq] at h1; cases h1
      | panic => rw [hq] at h1; cases h1
    repeat' (first | (cases ht; done) | (exact hl _ _ _ (by assumption)) | (dsimp only at ht; split at ht) | split at ht)
  unfold relDecodeSub
  cases h : (Rel.fromSub m r).1 with
  | ok t => exact absurd h (key t)
  | err e => exact fun h => by cases h
  | panic => exact fun h => by cases h

/-- C83: both submessages of that file panic (a buffer of 2^64 - 4 octets; a section 5 too short for its template). -/
theorem C83_overlap_panics : ∃ g, Rel.read ⟨overlapFile, 0, []⟩ = .ok g ∧
    [relDecodeSubAt g 0, relDecodeSubAt g 1] = [some .panic, some .panic] :=
  Outcome.exists_of_ok? (f := fun g : Grib2 => [relDecodeSubAt g 0, relDecodeSubAt g 1]) (by decide +kernel)

/-- C83: what the iterator of a release build says about the number of remaining items after `k` calls of `next`: the same as
in a debug build (C62), nothing wraps around. -/
theorem C83_size_hint (c : Codecs F) (t : Decoder) (it : BitmapIter F) (h : Rel.dispatch c t = .ok it) (k : Nat) :
    Rel.bitmapSizeHint (advance c.ops k it) =
      if t.numPointsTotal < 8 then t.numPointsTotal - k else t.numPointsTotal - k % 8 := by
  have hit : it.offset = 0 ∧ it.len = t.numPointsTotal := by
    unfold Rel.dispatch at h
    cases hv : Rel.decodeValues c t with
    | ok items =>
      rw [hv, Outcome.bind_ok, BitmapIter.new] at h
      split at h
      · cases h
      · cases h; exact ⟨rfl, rfl⟩
    | err e => rw [hv] at h; cases h
    | panic => rw [hv] at h; cases h
  obtain ⟨e1, e2⟩ := advance_offset c.ops k it (by omega) (by omega)
  unfold Rel.bitmapSizeHint
  rw [e1, e2, hit.1, hit.2]
  split <;> rw [Rel.usub_le (by omega)] <;> omega

/-- Ten points, after three calls. -/
example : ∃ it, Rel.dispatch exactCodecs sampleTen = .ok it ∧ Rel.bitmapSizeHint (advance exactCodecs.ops 3 it) = 7 := by
  obtain ⟨it, h1, -⟩ := Outcome.exists_of_ok? (x := Rel.dispatch exactCodecs sampleTen)
    (f := fun it : BitmapIter (Option Rat) => it.len) (b := 10) (by decide +kernel)
  exact ⟨it, h1, C83_size_hint exactCodecs sampleTen it h1 3⟩

end Grib.Props
