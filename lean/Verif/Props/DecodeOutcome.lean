import Verif.Props.ComplexOutcome
import Verif.Props.RunLengthOutcome
import Verif.Props.Count
import Verif.Props.EndToEnd
import Verif.Props.Jpeg

/-! # C69: every outcome of decoding a submessage

Templates 5.2, 5.3 and 5.200 have their cases in C68 and C67.  Here are those of the other templates, of the choice of the
template, of the bitmap, and of the whole way from an opened file to the list of values. -/

namespace Grib.Props

open Grib.Model Grib.Spec

variable {F : Type}

/-- The value of every point of a constant field: `R·10^-D`. -/
def constantValue (ops : FloatOps F) (sect5 : List UInt8) : F :=
  ops.mul (ops.ofBits (sectNumber sect5 12 15)) (ops.powi (ops.ofInt 10) (-sectSigned sect5 18 19))

/-- The integers of `n` bits in `data`, the low 32 bits of each. -/
def packedIntegers (data : List UInt8) (n : Nat) : List Nat :=
  (List.range (8 * data.length / n)).map fun k => bitField data (k * n) n % 2 ^ 32

/-- The points `(R + X·2^E)·10^-D` for integers `X`. -/
def integerPoints (ops : FloatOps F) (sect5 : List UInt8) (xs : List Int) : List F :=
  xs.map fun x => pointValue ops sect5 (.normal x)

/-- Template 5.0: all the cases. -/
inductive SimpleCase (ops : FloatOps F) (t : Decoder) : Outcome GribError (Items F) → Prop
  | short (h : t.sect5.length < 16) : SimpleCase ops t .panic
  | type (h : 16 ≤ t.sect5.length) (ht : sectNumber t.sect5 21 21 ≠ 0) : SimpleCase ops t (.err typeErr)
  | constant (h : 16 ≤ t.sect5.length) (ht : sectNumber t.sect5 21 21 = 0) (hn : bitsPerValue t.sect5 = 0) :
      SimpleCase ops t (.ok ((List.replicate t.numPointsEncoded (constantValue ops t.sect5)).map .ok))
  | values (h : 16 ≤ t.sect5.length) (ht : sectNumber t.sect5 21 21 = 0) (hn : 1 ≤ bitsPerValue t.sect5) :
      SimpleCase ops t (.ok ((integerPoints ops t.sect5 ((packedIntegers t.sect7 (bitsPerValue t.sect5)).map Int.ofNat)).map .ok))

/-- C69, template 5.0. -/
theorem C69_simple (ops : FloatOps F) (t : Decoder) (o : Outcome GribError (Items F)) :
    simpleDecode ops t = o ↔ SimpleCase ops t o := by
  have back : ∀ o, SimpleCase ops t o → simpleDecode ops t = o := by
    intro o h
    cases h with
    | short h => exact C20_short_section_panics ops t h
    | type h ht => exact C20_field_type ops t h ht
    | constant h ht hn => rw [C20_constant ops t h ht hn, List.map_replicate]; rfl
    | values h ht hn =>
      rw [C20_wide ops t h ht hn]
      unfold integerPoints packedIntegers
      rw [List.map_map, List.map_map, List.map_map]
      rfl
  constructor
  · rintro rfl
    suffices h : ∃ o, SimpleCase ops t o by
      obtain ⟨o, c⟩ := h
      rw [back _ c]; exact c
    by_cases h : t.sect5.length < 16
    · exact ⟨_, .short h⟩
    by_cases ht : sectNumber t.sect5 21 21 = 0
    · by_cases hn : bitsPerValue t.sect5 = 0
      · exact ⟨_, .constant (by omega) ht hn⟩
      · exact ⟨_, .values (by omega) ht (by omega)⟩
    · exact ⟨_, .type (by omega) ht⟩
  · exact back o

/-- Template 5.41: all the cases, given what the PNG decoder makes of section 7. -/
inductive PngCase (c : Codecs F) (t : Decoder) : Outcome GribError (Items F) → Prop
  | short (h : t.sect5.length < 16) : PngCase c t .panic
  | type (h : 16 ≤ t.sect5.length) (ht : sectNumber t.sect5 21 21 ≠ 0) : PngCase c t (.err typeErr)
  | refused (h : 16 ≤ t.sect5.length) (ht : sectNumber t.sect5 21 21 = 0) (hp : c.png t.sect7 = none) :
      PngCase c t (.err (.decodeError (.png .pngError)))
  | constant (h : 16 ≤ t.sect5.length) (ht : sectNumber t.sect5 21 21 = 0) (buf : List UInt8) (hp : c.png t.sect7 = some buf)
      (hn : bitsPerValue t.sect5 = 0) :
      PngCase c t (.ok ((List.replicate t.numPointsEncoded (constantValue c.ops t.sect5)).map .ok))
  | values (h : 16 ≤ t.sect5.length) (ht : sectNumber t.sect5 21 21 = 0) (buf : List UInt8) (hp : c.png t.sect7 = some buf)
      (hn : 1 ≤ bitsPerValue t.sect5) :
      PngCase c t (.ok ((integerPoints c.ops t.sect5 ((packedIntegers buf (bitsPerValue t.sect5)).map Int.ofNat)).map .ok))

/-- C69, template 5.41. -/
theorem C69_png (c : Codecs F) (t : Decoder) (o : Outcome GribError (Items F)) : pngDecode c t = o ↔ PngCase c t o := by
  have back : ∀ o, PngCase c t o → pngDecode c t = o := by
    intro o h
    cases h with
    | short h => unfold pngDecode; rw [fromSect5_short _ h]; rfl
    | type h ht => unfold pngDecode; rw [fromSect5_eq _ h, if_pos ht]; rfl
    | refused h ht hp =>
      unfold pngDecode; rw [fromSect5_eq _ h, if_neg (by simpa using ht), Outcome.bind_ok]
      simp only [hp]
    | constant h ht buf hp hn =>
      rw [C30_png_values c t buf hp]
      exact (C69_simple c.ops { t with sect7 := buf } _).mpr (.constant h ht hn)
    | values h ht buf hp hn =>
      rw [C30_png_values c t buf hp]
      exact (C69_simple c.ops { t with sect7 := buf } _).mpr (.values h ht hn)
  constructor
  · rintro rfl
    suffices h : ∃ o, PngCase c t o by
      obtain ⟨o, c⟩ := h
      rw [back _ c]; exact c
    by_cases h : t.sect5.length < 16
    · exact ⟨_, .short h⟩
    by_cases ht : sectNumber t.sect5 21 21 = 0
    · cases hp : c.png t.sect7 with
      | none => exact ⟨_, .refused (by omega) ht hp⟩
      | some buf =>
        by_cases hn : bitsPerValue t.sect5 = 0
        · exact ⟨_, .constant (by omega) ht buf hp hn⟩
        · exact ⟨_, .values (by omega) ht buf hp (by omega)⟩
    · exact ⟨_, .type (by omega) ht⟩
  · exact back o

/-- Template 5.40: all the cases, given what the JPEG 2000 decoder makes of section 7 (C47). -/
inductive JpegCase (c : Codecs F) (t : Decoder) : Outcome GribError (Items F) → Prop
  | short (h : t.sect5.length < 16) : JpegCase c t .panic
  | type (h : 16 ≤ t.sect5.length) (ht : sectNumber t.sect5 21 21 ≠ 0) : JpegCase c t (.err typeErr)
  | constant (h : 16 ≤ t.sect5.length) (ht : sectNumber t.sect5 21 21 = 0) (hn : bitsPerValue t.sect5 = 0) :
      JpegCase c t (.ok ((List.replicate t.numPointsEncoded (constantValue c.ops t.sect5)).map .ok))
  | refused (h : 16 ≤ t.sect5.length) (ht : sectNumber t.sect5 21 21 = 0) (hn : 1 ≤ bitsPerValue t.sect5) (e : Jpeg2000Error)
      (hj : c.jp2 t.sect7 = .err e) : JpegCase c t (.err (.decodeError (.jpeg2000 e)))
  | crash (h : 16 ≤ t.sect5.length) (ht : sectNumber t.sect5 21 21 = 0) (hn : 1 ≤ bitsPerValue t.sect5)
      (hj : c.jp2 t.sect7 = .panic) : JpegCase c t .panic
  | values (h : 16 ≤ t.sect5.length) (ht : sectNumber t.sect5 21 21 = 0) (hn : 1 ≤ bitsPerValue t.sect5) (xs : List Int)
      (hj : c.jp2 t.sect7 = .ok xs) : JpegCase c t (.ok ((integerPoints c.ops t.sect5 xs).map .ok))

/-- C69, template 5.40. -/
theorem C69_jpeg (c : Codecs F) (t : Decoder) (o : Outcome GribError (Items F)) : jpeg2000Decode c t = o ↔ JpegCase c t o := by
  have main : 16 ≤ t.sect5.length → sectNumber t.sect5 21 21 = 0 → 1 ≤ bitsPerValue t.sect5 → jpeg2000Decode c t = (do
      let xs ← (c.jp2 t.sect7).mapErr fun e => GribError.decodeError (.jpeg2000 e)
      .ok ((integerPoints c.ops t.sect5 xs).map .ok)) := by
    intro h ht hn
    unfold jpeg2000Decode
    rw [fromSect5_eq _ h, if_neg (by simpa using ht), Outcome.bind_ok]
    simp only [show sectNumber t.sect5 20 20 ≠ 0 from Nat.pos_iff_ne_zero.mp hn, if_false]
    congr 1
    funext xs
    unfold integerPoints SimpleParam.unpackAll
    rw [List.map_map, List.map_map]
    rfl
  have back : ∀ o, JpegCase c t o → jpeg2000Decode c t = o := by
    intro o h
    cases h with
    | short h => unfold jpeg2000Decode; rw [fromSect5_short _ h]; rfl
    | type h ht => unfold jpeg2000Decode; rw [fromSect5_eq _ h, if_pos ht]; rfl
    | constant h ht hn =>
      rw [(C30_constant_images c t h ht hn).1]
      exact (C69_simple c.ops t _).mpr (.constant h ht hn)
    | refused h ht hn e hj => rw [main h ht hn, hj]; rfl
    | crash h ht hn hj => rw [main h ht hn, hj]; rfl
    | values h ht hn xs hj => rw [main h ht hn, hj]; rfl
  constructor
  · rintro rfl
    suffices h : ∃ o, JpegCase c t o by
      obtain ⟨o, c⟩ := h
      rw [back _ c]; exact c
    by_cases h : t.sect5.length < 16
    · exact ⟨_, .short h⟩
    by_cases ht : sectNumber t.sect5 21 21 = 0
    · by_cases hn : bitsPerValue t.sect5 = 0
      · exact ⟨_, .constant (by omega) ht hn⟩
      · cases hj : c.jp2 t.sect7 with
        | ok xs => exact ⟨_, .values (by omega) ht (by omega) xs hj⟩
        | err e => exact ⟨_, .refused (by omega) ht (by omega) e hj⟩
        | panic => exact ⟨_, .crash (by omega) ht (by omega) hj⟩
    · exact ⟨_, .type (by omega) ht⟩
  · exact back o

/-- Section 7 with any template: all the cases. -/
inductive ValuesCase (c : Codecs F) (t : Decoder) : Outcome GribError (Items F) → Prop
  | simple (h : t.templateNum = 0) {o} (ho : SimpleCase c.ops t o) : ValuesCase c t o
  | complex (h : t.templateNum = 2) {o} (ho : Complex2Case c.ops t o) : ValuesCase c t o
  | diff (h : t.templateNum = 3) {o} (ho : Complex3Case c.ops t o) : ValuesCase c t o
  | jpeg (h : t.templateNum = 40) {o} (ho : JpegCase c t o) : ValuesCase c t o
  | png (h : t.templateNum = 41) {o} (ho : PngCase c t o) : ValuesCase c t o
  | runLength (h : t.templateNum = 200) {o} (ho : RunLengthCase c.ops t o) : ValuesCase c t o
  | unsupported (h : t.templateNum ∉ [0, 2, 3, 40, 41, 200]) : ValuesCase c t (.err (.decodeError .templateNumberUnsupported))

/-- C69. Decoding the values of section 7, whatever the template. -/
theorem C69_values (c : Codecs F) (t : Decoder) (o : Outcome GribError (Items F)) :
    t.decodeValues c = o ↔ ValuesCase c t o := by
  have back : ∀ o, ValuesCase c t o → t.decodeValues c = o := by
    intro o h
    unfold Decoder.decodeValues
    cases h with
    | simple h ho => rw [h]; exact (C69_simple _ _ _).mpr ho
    | complex h ho => rw [h]; exact (C68_outcome2 _ _ _).mpr ho
    | diff h ho => rw [h]; exact (C68_outcome3 _ _ _).mpr ho
    | jpeg h ho => rw [h]; exact (C69_jpeg _ _ _).mpr ho
    | png h ho => rw [h]; exact (C69_png _ _ _).mpr ho
    | runLength h ho => rw [h]; exact (C67_outcome _ _ _).mpr ho
    | unsupported h =>
      simp only [List.mem_cons, List.not_mem_nil, or_false, not_or] at h
      split <;> first | rfl | (exfalso; omega)
  constructor
  · rintro rfl
    suffices h : ∃ o, ValuesCase c t o by
      obtain ⟨o, c⟩ := h
      rw [back _ c]; exact c
    by_cases h : t.templateNum ∈ [0, 2, 3, 40, 41, 200]
    · simp only [List.mem_cons, List.not_mem_nil, or_false] at h
      rcases h with h | h | h | h | h | h
      · exact ⟨_, .simple h ((C69_simple _ _ _).mp rfl)⟩
      · exact ⟨_, .complex h ((C68_outcome2 _ _ _).mp rfl)⟩
      · exact ⟨_, .diff h ((C68_outcome3 _ _ _).mp rfl)⟩
      · exact ⟨_, .jpeg h ((C69_jpeg _ _ _).mp rfl)⟩
      · exact ⟨_, .png h ((C69_png _ _ _).mp rfl)⟩
      · exact ⟨_, .runLength h ((C67_outcome _ _ _).mp rfl)⟩
    · exact ⟨_, .unsupported h⟩
  · exact back o

/-! ## The bitmap -/

/-- Some values, and a call that panics after them if `broken`. -/
def upTo (vs : List F) (broken : Bool) : Items F := vs.map .ok ++ if broken then [.panic] else []

/-- Whatever the template, the items are values, and possibly a panic at the end. -/
theorem values_shape {c : Codecs F} {t : Decoder} {items : Items F} (h : ValuesCase c t (.ok items)) :
    ∃ vs broken, items = upTo vs broken := by
  have plain : ∀ vs : List F, ∃ vs' broken, (vs.map Outcome.ok : Items F) = upTo vs' broken := fun vs =>
    ⟨vs, false, by unfold upTo; simp⟩
  have pts : ∀ (s5 : List UInt8) (xs : List DecodedValue) (short : Prop) [Decidable short],
      ∃ vs' broken, points c.ops s5 xs short = upTo vs' broken := by
    intro s5 xs short _
    refine ⟨xs.map (pointValue c.ops s5), decide short, ?_⟩
    unfold points upTo
    rw [List.map_map]
    by_cases h : short <;> simp [h]
  cases h with
  | simple h ho => cases ho <;> exact plain _
  | complex h ho => cases ho; exact pts _ _ _
  | diff h ho => cases ho <;> exact pts _ _ _
  | jpeg h ho => cases ho <;> exact plain _
  | png h ho => cases ho <;> exact plain _
  | runLength h ho =>
    cases ho with
    | values h rs hw hr hc hl =>
      have := plain ((levelsOf t rs).map (levelValue c.ops t.sect5))
      rw [List.map_map] at this
      exact this

/-- The points: as many as the values suffice for, NaN where the bit is 0, else the next value. -/
def placed (ops : FloatOps F) (bs : List Bool) (vs : List F) : List F :=
  (List.range (served bs vs.length)).map fun k =>
    if bs[k]? = some true then vs.getD ((bs.take k).count true) ops.nan else ops.nan

theorem spread_placed (ops : FloatOps F) (bs : List Bool) (vs : List F) : spread ops bs (vs.map .ok) = .done (placed ops bs vs) := by
  obtain ⟨out, h1, h2, h3⟩ := spread_served ops bs vs
  rw [h1]
  congr 1
  apply List.ext_getElem?
  intro k
  by_cases hk : k < out.length
  · rw [h3 k hk]
    unfold placed
    rw [List.getElem?_map, List.getElem?_range (by omega)]
    simp only [Option.map_some]
    split
    · rename_i hb
      rw [List.getD_eq_getElem?_getD]
      have := h3 k hk
      rw [if_pos hb, List.getElem?_eq_getElem hk] at this
      rw [← this]; rfl
    · rfl
  · rw [List.getElem?_eq_none (by omega), List.getElem?_eq_none]
    unfold placed
    rw [List.length_map, List.length_range]
    omega

/-- Decoding and collecting all points. -/
def decodeAll (c : Codecs F) (t : Decoder) : Outcome GribError (Drained F) := do
  let it ← t.dispatch c
  .ok (it.toList c.ops)

/-- All the cases of `decodeAll`. -/
inductive PointsCase (c : Codecs F) (t : Decoder) : Outcome GribError (Drained F) → Prop
  | refused (e : GribError) (h : ValuesCase c t (.err e)) : PointsCase c t (.err e)
  | crash (h : ValuesCase c t .panic) : PointsCase c t .panic
  | bitmap (items : Items F) (h : ValuesCase c t (.ok items)) (hb : 8 * t.bitmap.length < t.numPointsTotal) :
      PointsCase c t (.err (.decodeError .lengthMismatch))
  | points (vs : List F) (broken : Bool) (h : ValuesCase c t (.ok (upTo vs broken)))
      (hb : t.numPointsTotal ≤ 8 * t.bitmap.length) (hp : broken = true → (consulted t).count true ≤ vs.length) :
      PointsCase c t (.ok (.done (placed c.ops (consulted t) vs)))
  | panics (vs : List F) (h : ValuesCase c t (.ok (upTo vs true))) (hb : t.numPointsTotal ≤ 8 * t.bitmap.length)
      (hp : vs.length < (consulted t).count true) : PointsCase c t (.ok .panic)

/-- C69. Decoding a submessage given its sections: the outcome is `o` if and only if the sections are in the case of `o`. -/
theorem C69_points (c : Codecs F) (t : Decoder) (o : Outcome GribError (Drained F)) : decodeAll c t = o ↔ PointsCase c t o := by
  have disp : ∀ items, t.decodeValues c = .ok items → t.numPointsTotal ≤ 8 * t.bitmap.length →
      decodeAll c t = .ok (spread c.ops (consulted t) items) := by
    intro items hv hl
    unfold decodeAll
    rw [dispatch_ok c t _ hv hl, Outcome.bind_ok, BitmapIter.toList_eq _ _ _ _ hl]
    rfl
  have back : ∀ o, PointsCase c t o → decodeAll c t = o := by
    intro o h
    cases h with
    | refused e h => unfold decodeAll Decoder.dispatch; rw [(C69_values _ _ _).mpr h]; rfl
    | crash h => unfold decodeAll Decoder.dispatch; rw [(C69_values _ _ _).mpr h]; rfl
    | bitmap items h hb => unfold decodeAll; rw [C23_short_bitmap c t _ ((C69_values _ _ _).mpr h) hb]; rfl
    | points vs broken h hb hp =>
      rw [disp _ ((C69_values _ _ _).mpr h) hb, ← spread_placed]
      congr 1
      unfold upTo
      cases broken with
      | false => simp
      | true => exact (spread_panic c.ops (consulted t) vs []).1 (hp rfl)
    | panics vs h hb hp =>
      rw [disp _ ((C69_values _ _ _).mpr h) hb]
      congr 1
      exact (spread_panic c.ops (consulted t) vs []).2 hp
  constructor
  · rintro rfl
    suffices h : ∃ o, PointsCase c t o by
      obtain ⟨o, c⟩ := h
      rw [back _ c]; exact c
    have hv := (C69_values c t _).mp rfl
    generalize t.decodeValues c = v at hv
    cases v with
    | err e => exact ⟨_, .refused e hv⟩
    | panic => exact ⟨_, .crash hv⟩
    | ok items =>
      by_cases hb : 8 * t.bitmap.length < t.numPointsTotal
      · exact ⟨_, .bitmap items hv hb⟩
      · obtain ⟨vs, broken, rfl⟩ := values_shape hv
        by_cases hp : broken = true ∧ vs.length < (consulted t).count true
        · obtain ⟨rfl, hp⟩ := hp
          exact ⟨_, .panics vs hv (by omega) hp⟩
        · refine ⟨_, .points vs broken hv (by omega) ?_⟩
          intro hbr
          apply Decidable.byContradiction
          intro hc
          exact hp ⟨hbr, by omega⟩
  · exact back o

/-! ## From an opened file -/

/-- `Grib2SubmessageDecoder::from`, `dispatch` and collecting the values. -/
def decodeSub (c : Codecs F) (m : SubMessage) (r : Rdr) : Outcome GribError (Drained F) := do
  let d ← (Decoder.fromSub m r).1
  decodeAll c d

/-- All the cases of decoding a submessage with the octets `s3`, `s5`, `s6`, `s7` as sections 3, 5, 6 and 7. -/
inductive SubmessageCase (c : Codecs F) (s3 s5 s6 s7 : List UInt8) : Outcome GribError (Drained F) → Prop
  | indicator (h : field s6 0 6 6 ≠ 0) (h' : field s6 0 6 6 ≠ 255) :
      SubmessageCase c s3 s5 s6 s7 (.err (.decodeError .bitMapIndicatorUnsupported))
  | decoded (bitmap : List UInt8)
      (h : (field s6 0 6 6 = 0 ∧ bitmap = s6.drop 6) ∨
        (field s6 0 6 6 = 255 ∧ bitmap = List.replicate ((field s3 0 7 10 + 7) / 8) 0xff)) {o}
      (ho : PointsCase c ⟨field s3 0 7 10, field s5 0 6 9, field s5 0 10 11, s5.drop 5, bitmap, s7.drop 5⟩ o) :
      SubmessageCase c s3 s5 s6 s7 o

/-- C69. For every submessage of every opened file, with the reader in any state (same octets, not failing): the outcome of
decoding it completely is `o` if and only if the octets of its own sections 3, 5, 6 and 7 are in the case of `o`. -/
theorem C69_submessage {r0 : Rdr} {g : Grib2} (h : Grib2.read r0 = .ok g) {ix : Nat × Nat} {m : SubMessage}
    (hm : (ix, m) ∈ SubIter.drain (g.len + 1) g.iter) (r : Rdr) (hr : r.data = r0.data) (hb : IoEv.fail ∉ r.evs)
    (c : Codecs F) (o : Outcome GribError (Drained F)) :
    decodeSub c m r = o ↔ SubmessageCase c (octetsAt r0.data m.s3.2) (octetsAt r0.data m.s5.2) (octetsAt r0.data m.s6.2)
      (octetsAt r0.data m.s7.2) o := by
  obtain ⟨hd, -, -⟩ := C49_own_sections h hm r hr hb
  unfold decodeSub
  rw [hd]
  generalize octetsAt r0.data m.s3.2 = s3
  generalize octetsAt r0.data m.s5.2 = s5
  generalize octetsAt r0.data m.s6.2 = s6
  generalize octetsAt r0.data m.s7.2 = s7
  unfold decoderOf
  simp only
  by_cases h0 : field s6 0 6 6 = 0
  · rw [if_pos h0, Outcome.bind_ok, C69_points]
    constructor
    · exact fun ho => .decoded _ (.inl ⟨h0, rfl⟩) ho
    · intro ho
      cases ho with
      | indicator h => exact absurd h0 h
      | decoded bitmap h ho =>
        rcases h with ⟨-, rfl⟩ | ⟨h, -⟩
        · exact ho
        · omega
  · rw [if_neg h0]
    by_cases h1 : field s6 0 6 6 = 255
    · rw [if_pos h1, Outcome.bind_ok, C69_points]
      constructor
      · exact fun ho => .decoded _ (.inr ⟨h1, rfl⟩) ho
      · intro ho
        cases ho with
        | indicator _ h => exact absurd h1 h
        | decoded bitmap h ho =>
          rcases h with ⟨h, -⟩ | ⟨-, rfl⟩
          · exact absurd h h0
          · exact ho
    · rw [if_neg h1]
      constructor
      · rintro rfl; exact .indicator h0 h1
      · intro ho
        cases ho with
        | indicator _ _ => rfl
        | decoded bitmap h ho =>
          rcases h with ⟨h, -⟩ | ⟨h, -⟩
          · exact absurd h h0
          · exact absurd h h1

/-- C69. Corollary: which errors decoding can report at all, given the template. -/
theorem C69_errors (c : Codecs F) (t : Decoder) (e : GribError) (h : decodeAll c t = .err e) :
    e = .decodeError .lengthMismatch ∨
    (t.templateNum ∉ [0, 2, 3, 40, 41, 200] ∧ e = .decodeError .templateNumberUnsupported) ∨
    (t.templateNum ∈ [0, 2, 3, 40, 41] ∧ e = typeErr) ∨
    (t.templateNum ∈ [2, 3] ∧ e = complexErr) ∨ (t.templateNum = 3 ∧ e = .notSupported) ∨
    (t.templateNum = 40 ∧ ∃ j, e = .decodeError (.jpeg2000 j)) ∨ (t.templateNum = 41 ∧ e = .decodeError (.png .pngError)) ∨
    (t.templateNum = 200 ∧ ∃ r, e = runLengthErr r) := by
  have hc := (C69_points c t _).mp h
  cases hc with
  | bitmap => exact .inl rfl
  | refused e h =>
    cases h with
    | simple ht ho => cases ho; exact .inr (.inr (.inl ⟨by simp [ht], rfl⟩))
    | complex ht ho =>
      cases ho
      · exact .inr (.inr (.inl ⟨by simp [ht], rfl⟩))
      · exact .inr (.inr (.inr (.inl ⟨by simp [ht], rfl⟩)))
    | diff ht ho =>
      cases ho
      · exact .inr (.inr (.inl ⟨by simp [ht], rfl⟩))
      · exact .inr (.inr (.inr (.inr (.inl ⟨ht, rfl⟩))))
      · exact .inr (.inr (.inr (.inl ⟨by simp [ht], rfl⟩)))
    | jpeg ht ho =>
      cases ho
      · exact .inr (.inr (.inl ⟨by simp [ht], rfl⟩))
      · exact .inr (.inr (.inr (.inr (.inr (.inl ⟨ht, _, rfl⟩)))))
    | png ht ho =>
      cases ho
      · exact .inr (.inr (.inl ⟨by simp [ht], rfl⟩))
      · exact .inr (.inr (.inr (.inr (.inr (.inr (.inl ⟨ht, rfl⟩))))))
    | runLength ht ho =>
      cases ho
      · exact .inr (.inr (.inr (.inr (.inr (.inr (.inr ⟨ht, _, rfl⟩))))))
      · exact .inr (.inr (.inr (.inr (.inr (.inr (.inr ⟨ht, _, rfl⟩))))))
      · exact .inr (.inr (.inr (.inr (.inr (.inr (.inr ⟨ht, _, rfl⟩))))))
    | unsupported ht => exact .inr (.inl ⟨ht, rfl⟩)

/-! ## Cases that occur -/

/-- A bitmap, one octet too many in section 7. -/
example : PointsCase exactCodecs sampleMasked (.ok (.done [some (23 / 40), none, some (3 / 20), none, some (37 / 40)])) :=
  (C69_points _ _ _).mp (by decide +kernel)

/-- Complex packing with the last octet missing: six points, then a panic; no panic if the bitmap asks for six values only. -/
example : PointsCase exactCodecs { sampleComplex2 with sect7 := sampleComplex2.sect7.dropLast, templateNum := 2 } (.ok .panic) :=
  (C69_points _ _ _).mp (by decide +kernel)

example : PointsCase exactCodecs { sampleComplex2 with sect7 := sampleComplex2.sect7.dropLast, templateNum := 2, bitmap := [0xfc] }
    (.ok (.done [some 22, none, some 28, none, none, none, none, none])) :=
  (C69_points _ _ _).mp (by decide +kernel)

example : PointsCase exactCodecs { sampleMasked with bitmap := [] } (.err (.decodeError .lengthMismatch)) :=
  (C69_points _ _ _).mp (by decide +kernel)

/-- An image with two pixels, in a field with a bitmap. -/
example : PointsCase { exactCodecs with jp2 := fun _ => .ok [-3, 5] } { sampleMasked with templateNum := 40, numPointsTotal := 3 }
    (.ok (.done [some (3 / 40), none, some (11 / 40)])) :=
  (C69_points _ _ _).mp (by decide +kernel)

/-- The submessages of the file of C49, as decoded by `decodeSub`. -/
def decodeSubAt (g : Grib2) (k : Nat) : Option (Outcome GribError (Drained (Option Rat))) :=
  (SubIter.drain (g.len + 1) g.iter)[k]?.map fun x => decodeSub exactCodecs x.2 g.reader

example : ∃ g, Grib2.read ⟨packedFile, 0, []⟩ = .ok g ∧ [decodeSubAt g 0, decodeSubAt g 3, decodeSubAt g 4] =
    [some .panic, some (.ok (.done [some 9, none, some 4])), some (.err (.decodeError .bitMapIndicatorUnsupported))] :=
  Outcome.exists_of_ok? (f := fun g => [decodeSubAt g 0, decodeSubAt g 3, decodeSubAt g 4]) (by decide +kernel)

end Grib.Props
