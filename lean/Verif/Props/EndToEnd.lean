import Verif.Lemmas.EndToEnd
import Verif.Props.Bitmap

/-! # C49, C50: decoding the submessages of a file, in any order -/

namespace Grib.Spec

/-- What a decoder is set up with, given the complete octets of sections 3, 5, 6 and 7: the number of grid points (octets
7-10 of section 3), the number of encoded points and the template number (octets 6-9 and 10-11 of section 5), the
octets after the headers of sections 5 and 7, and the bitmap: for indicator 0 (octet 6 of section 6) the octets after
it, for 255 ones for all points; other indicators are refused. -/
def decoderOf (s3 s5 s6 s7 : List UInt8) : Outcome Grib.Model.GribError Grib.Model.Decoder :=
  let points := field s3 0 7 10
  let d : List UInt8 → Grib.Model.Decoder := fun bitmap =>
    { numPointsTotal := points, numPointsEncoded := field s5 0 6 9, templateNum := field s5 0 10 11, sect5 := s5.drop 5,
      bitmap := bitmap, sect7 := s7.drop 5 }
  if field s6 0 6 6 = 0 then .ok (d (s6.drop 6))
  else if field s6 0 6 6 = 255 then .ok (d (List.replicate ((points + 7) / 8) 0xff))
  else .err (.decodeError .bitMapIndicatorUnsupported)

end Grib.Spec

namespace Grib.Model

open Grib.Spec Grib.Props

theorem octetsAt_octet {data : List UInt8} {s : SectionInfo} {k : Nat} (h : k < s.size) :
    octet (octetsAt data s) k = octet data (s.offset + k) := by
  unfold octet octetsAt
  simp only [List.getD_eq_getElem?_getD]
  rw [List.getElem?_take_of_lt h, List.getElem?_drop]

theorem octetsAt_number {data : List UInt8} {s : SectionInfo} {p n : Nat} (h : p + n ≤ s.size) :
    number (octetsAt data s) p n = number data (s.offset + p) n := by
  unfold number
  induction n with
  | zero => rfl
  | succ n ih =>
    rw [List.range_succ, List.foldl_append, List.foldl_append, ih (by omega)]
    simp only [List.foldl_cons, List.foldl_nil]
    rw [octetsAt_octet (by omega), Nat.add_assoc]

theorem octetsAt_field {data : List UInt8} {s : SectionInfo} {a b : Nat} (h1 : 1 ≤ a) (hb : a ≤ b) (h : b ≤ s.size) :
    field (octetsAt data s) 0 a b = field data s.offset a b := by
  unfold field
  rw [Nat.zero_add, octetsAt_number (by omega)]

theorem octetsAt_payload (data : List UInt8) (s : SectionInfo) : (octetsAt data s).drop 5 = payloadAt data s.offset s.size := by
  unfold octetsAt payloadAt
  rw [List.drop_take, List.drop_drop]

theorem createBitmap_replicate (n : Nat) : createBitmap n = List.replicate ((n + 7) / 8) 0xff := by
  unfold createBitmap
  split
  · rw [show n / 8 = (n + 7) / 8 by omega]
  · rw [show n / 8 + 1 = (n + 7) / 8 by omega]

end Grib.Model

namespace Grib.Props

open Grib.Model Grib.Spec

variable {F : Type}

/-- C49, C50. Setting up a decoder for any submessage of any opened file, with the reader in any state (it holds the same
octets, and does not fail), gives what the octets of the submessage's own sections 3, 5, 6 and 7 determine.  The reader
stays in such a state. -/
theorem C49_own_sections {r0 : Rdr} {g : Grib2} (h : Grib2.read r0 = .ok g) {ix : Nat × Nat} {m : SubMessage}
    (hm : (ix, m) ∈ SubIter.drain (g.len + 1) g.iter) (r : Rdr) (hr : r.data = r0.data) (hb : IoEv.fail ∉ r.evs) :
    (Decoder.fromSub m r).1 =
      decoderOf (octetsAt r0.data m.s3.2) (octetsAt r0.data m.s5.2) (octetsAt r0.data m.s6.2) (octetsAt r0.data m.s7.2) ∧
    (Decoder.fromSub m r).2.data = r0.data ∧ IoEv.fail ∉ (Decoder.fromSub m r).2.evs := by
  obtain ⟨h1, h2, h3⟩ := fromSub_opened h hm r hr hb
  refine ⟨?_, h1, h2⟩
  rw [h3]
  obtain ⟨-, -, -, -, -, hk⟩ := C17_accessors r0 g h ix m hm (ε := Unit)
  obtain ⟨n3, -, f3⟩ := hk (m.s3, 3) (by simp)
  obtain ⟨n5, -, f5⟩ := hk (m.s5, 5) (by simp)
  obtain ⟨n6, -, f6⟩ := hk (m.s6, 6) (by simp)
  dsimp only at n3 f3 n5 f5 n6 f6
  have p3 := faithful_payload f3 (by omega) (by omega)
  have p5 := faithful_payload f5 (by omega) (by omega)
  have w6 := f6.whole (by omega)
  have m6 := w6.2 (by omega)
  rw [n3] at p3
  rw [n5] at p5
  rw [n6] at m6
  simp only [minPayload] at p3 p5 m6
  unfold decoderOf decoderAt
  simp only
  rw [octetsAt_field (by omega) (by omega) (by omega), octetsAt_field (by omega) (by omega) (by omega),
    octetsAt_field (by omega) (by omega) (by omega), octetsAt_field (by omega) (by omega) (by omega),
    octetsAt_payload, octetsAt_payload, createBitmap_replicate,
    show (octetsAt r0.data m.s6.2).drop 6 = (payloadAt r0.data m.s6.2.offset m.s6.2.size).drop 1 by
      rw [← octetsAt_payload, List.drop_drop]]

/-- C49. For a file of well-formed messages with arbitrary gaps and trailing octets: the file opens, the octets of the
sections of the listed submessages are, in order, those of the submessages written (sections inherited from earlier
groups of the same message included), and for each of them the decoder is set up from its own sections 3, 5, 6, 7. -/
theorem C49_written_file (l : List (List UInt8 × RawMessage)) (hl : ∀ x ∈ l, NoMagic x.1 ∧ x.2.Ok)
    (trailing : List UInt8) (ht : ∀ q, ¬ MagicAt trailing q) (hlen : (messagesBytes l).length < 2 ^ 64)
    (evs : List IoEv) (hev : Benign evs) :
    ∃ g dummy, Grib2.read ⟨messagesBytes l ++ trailing, 0, evs⟩ = .ok g ∧
      (SubIter.drain (g.len + 1) g.iter).map
          (fun x => (⟨x.1.1, x.1.2, x.2.map (octetsAt (messagesBytes l ++ trailing) ∘ Prod.snd)⟩ : Submsg (List UInt8))) =
        fileSubs dummy dummy 0 (l.map (·.2.octets)) ∧
      ∀ x ∈ SubIter.drain (g.len + 1) g.iter, ∀ (r : Rdr), r.data = messagesBytes l ++ trailing → IoEv.fail ∉ r.evs →
        let s := x.2.map (octetsAt (messagesBytes l ++ trailing) ∘ Prod.snd)
        (Decoder.fromSub x.2 r).1 = decoderOf s.s3 s.s5 s.s6 s.s7 := by
  obtain ⟨g, h1, h2, h3⟩ := C10_write_then_open l hl trailing ht hlen evs hev
  refine ⟨g, octetsAt (messagesBytes l ++ trailing) (g.sections.headD .default), h1, ?_, ?_⟩
  · have h4 := congrArg (List.map (Submsg.map (octetsAt (messagesBytes l ++ trailing)))) h3
    rw [← fileSubs_map, List.map_map] at h4
    have h5 := locateMessages_octets [] trailing 0 l rfl
    rw [List.nil_append] at h5
    rw [h5] at h4
    rw [← h4]
    apply List.map_congr_left
    intro x _
    simp [Submsg.map, Nine.map, Option.map_map]
  · intro x hx r hr hb
    exact (C49_own_sections h1 (ix := x.1) (m := x.2) hx r hr hb).1

/-- C49. End to end for simple packing without a bitmap: the listed submessage's values are `(R + X_k·2^E)·10^-D` with
`R`, `E`, `D` and the width from its own section 5 and `X_k` from its own section 7; all of these as far as the
points rounded up to a multiple of 8 go (see C22). -/
theorem C49_simple {r0 : Rdr} {g : Grib2} (h : Grib2.read r0 = .ok g) {ix : Nat × Nat} {m : SubMessage}
    (hm : (ix, m) ∈ SubIter.drain (g.len + 1) g.iter) (r : Rdr) (hr : r.data = r0.data) (hb : IoEv.fail ∉ r.evs)
    (c : Codecs (Option Rat)) (hc : c.ops = FloatOps.exact) (ref : Rat)
    (s3 s5 s6 s7 : List UInt8) (e3 : s3 = octetsAt r0.data m.s3.2) (e5 : s5 = octetsAt r0.data m.s5.2)
    (e6 : s6 = octetsAt r0.data m.s6.2) (e7 : s7 = octetsAt r0.data m.s7.2)
    (hind : field s6 0 6 6 = 255) (htmpl : field s5 0 10 11 = 0) (hlen : 21 ≤ s5.length) (htype : field s5 0 21 21 = 0)
    (hn : 1 ≤ field s5 0 20 20) (h32 : field s5 0 20 20 ≤ 32) (href : f32Value (field s5 0 12 15) = some ref) :
    ∃ d it, (Decoder.fromSub m r).1 = .ok d ∧ d.dispatch c = .ok it ∧
      it.toList c.ops = .done (((List.range (8 * (s7.length - 5) / field s5 0 20 20)).map fun k =>
        some (unpacked ref (signedField s5 0 16 17) (signedField s5 0 18 19)
          (bitField (s7.drop 5) (k * field s5 0 20 20) (field s5 0 20 20)))).take
        (if field s3 0 7 10 < 8 then field s3 0 7 10 else (field s3 0 7 10 + 7) / 8 * 8)) := by
  obtain ⟨hd, -, -⟩ := C49_own_sections h hm r hr hb
  rw [← e3, ← e5, ← e6, ← e7] at hd
  unfold decoderOf at hd
  simp only [hind, show (255 : Nat) ≠ 0 by decide, if_false, if_true] at hd
  have hnum : ∀ a b, 6 ≤ a → sectNumber (s5.drop 5) a b = field s5 0 a b := by
    intro a b ha
    unfold sectNumber field number
    congr 1
    funext acc k
    unfold octet
    simp only [List.getD_eq_getElem?_getD, List.getElem?_drop]
    rw [show 5 + (a - 6 + k) = 0 + (a - 1) + k by omega]
  have hsig : ∀ a b, 6 ≤ a → sectSigned (s5.drop 5) a b = signedField s5 0 a b := by
    intro a b ha
    unfold sectSigned signedField
    rw [List.drop_drop, show 5 + (a - 6) = 0 + (a - 1) by omega]
  generalize hD : (Decoder.mk (field s3 0 7 10) (field s5 0 6 9) (field s5 0 10 11) (s5.drop 5)
    (List.replicate ((field s3 0 7 10 + 7) / 8) 0xff) (s7.drop 5)) = d at hd
  have d5 : d.sect5 = s5.drop 5 := by rw [← hD]
  have d7 : d.sect7 = s7.drop 5 := by rw [← hD]
  have dt : d.templateNum = 0 := by rw [← hD]; exact htmpl
  have dn : d.numPointsTotal = field s3 0 7 10 := by rw [← hD]
  have db : d.bitmap = createBitmap d.numPointsTotal := by rw [← hD, createBitmap_replicate]
  have hv : d.decodeValues c = .ok (((List.range (8 * (s7.length - 5) / field s5 0 20 20)).map fun k =>
        some (unpacked ref (signedField s5 0 16 17) (signedField s5 0 18 19)
          (bitField (s7.drop 5) (k * field s5 0 20 20) (field s5 0 20 20)))).map .ok) := by
    unfold Decoder.decodeValues
    rw [dt]
    simp only
    rw [hc, C20_exact d (by rw [d5]; simp; omega) (by rw [d5, hnum _ _ (by omega)]; exact htype)
      (by unfold bitsPerValue; rw [d5, hnum _ _ (by omega)]; exact hn)
      (by unfold bitsPerValue; rw [d5, hnum _ _ (by omega)]; exact h32) ref (by rw [d5, hnum _ _ (by omega)]; exact href)]
    unfold bitsPerValue
    rw [d5, d7, hnum _ _ (by omega), hsig _ _ (by omega), hsig _ _ (by omega), List.length_drop, List.map_map]
    rfl
  obtain ⟨it, i1, i2⟩ := C22_no_bitmap_partial c d _ hv db
  exact ⟨d, it, hd, i1, by rw [i2, dn]⟩

/-! ## C50 -/

/-- Set up decoders for submessages one after the other, with the same reader. -/
def decodeHistory : List SubMessage → Rdr → List (Outcome GribError Decoder) × Rdr
  | [], r => ([], r)
  | m :: ms, r =>
    let (d, r') := Decoder.fromSub m r
    let (ds, r'') := decodeHistory ms r'
    (d :: ds, r'')

/-- C50. Whatever submessages of an opened file were decoded before, in whatever order and how often, decoding a
submessage gives the same result as decoding it alone right after opening. -/
theorem C50_any_history {r0 : Rdr} {g : Grib2} (h : Grib2.read r0 = .ok g) (hb : IoEv.fail ∉ g.reader.evs)
    (before : List SubMessage) (hbefore : ∀ m ∈ before, ∃ ix, (ix, m) ∈ SubIter.drain (g.len + 1) g.iter)
    {ix : Nat × Nat} {m : SubMessage} (hm : (ix, m) ∈ SubIter.drain (g.len + 1) g.iter) :
    (Decoder.fromSub m (decodeHistory before g.reader).2).1 = (Decoder.fromSub m g.reader).1 := by
  have hdata : g.reader.data = r0.data := by
    rw [Grib2.read_eq] at h
    cases hc : collectResult (idxStreamItems (itemsR r0).1).1 with
    | ok subs =>
      rw [hc] at h
      cases h
      exact (collectR_honest _ _ _ r0).1
    | err e => rw [hc] at h; cases h
    | panic => rw [hc] at h; cases h
  have key : ∀ (before : List SubMessage), (∀ m ∈ before, ∃ ix, (ix, m) ∈ SubIter.drain (g.len + 1) g.iter) →
      ∀ r : Rdr, r.data = r0.data → IoEv.fail ∉ r.evs →
        (decodeHistory before r).2.data = r0.data ∧ IoEv.fail ∉ (decodeHistory before r).2.evs := by
    intro before
    induction before with
    | nil => intro _ r h1 h2; exact ⟨h1, h2⟩
    | cons m ms ih =>
      intro hmem r h1 h2
      obtain ⟨ix, hix⟩ := hmem m (by simp)
      obtain ⟨-, a, b⟩ := C49_own_sections h hix r h1 h2
      exact ih (fun m hm => hmem m (by simp [hm])) _ a b
  obtain ⟨k1, k2⟩ := key before hbefore g.reader hdata hb
  rw [(C49_own_sections h hm _ k1 k2).1, (C49_own_sections h hm _ hdata hb).1]

/-! ## A concrete file -/

/-- Two submessages on the same three grid points: without a bitmap (`17, 0, 31` of 5 bits), with a bitmap (`9, 4` of 8
bits, the second point missing); and a third with an unsupported bitmap indicator. -/
def packedRaw : RawMessage :=
  { reserved := (0, 0), discipline := 0, ident := [0, 7, 0, 0, 2, 1, 0, 7, 228, 1, 2, 3, 4, 5, 0, 1],
    first := ⟨none, some [0, 0, 0, 0, 3, 0, 0, 0, 0], [0, 0, 0, 0], sampleSimple.sect5, [255], packInts 5 [17, 0, 31]⟩,
    rest := [⟨none, none, [0, 0, 0, 0], [0, 0, 0, 2, 0, 0, 0, 0, 0, 0, 0, 0, 0, 0, 8, 0], [0, 0b10100000], [9, 4]⟩,
      ⟨none, none, [0, 0, 0, 0], [0, 0, 0, 2, 0, 0, 0, 0, 0, 0, 0, 0, 0, 0, 8, 0], [254], [9, 4]⟩] }

theorem packedRaw_ok : packedRaw.Ok := by
  refine ⟨?_, by decide, by decide⟩
  intro x hx
  have : ∀ x ∈ packedRaw.raw, minPayload x.1 ≤ x.2.length ∧ x.2.length + 5 < 2 ^ 32 := by decide +kernel
  exact this x hx

def packedFile : List UInt8 := messagesBytes [([1, 2], sampleRaw), ([], packedRaw)]

/-- Decode everything of an opened file, in the order of the given positions. -/
def decodeAt (c : Codecs F) (g : Grib2) (order : List Nat) : List (Outcome GribError (Drained F)) :=
  let subs := (SubIter.drain (g.len + 1) g.iter).map Prod.snd
  (decodeHistory (order.filterMap (subs[·]?)) g.reader).1.map fun d => do
    let d ← d
    let it ← d.dispatch c
    .ok (it.toList c.ops)

/-- The submessages are 0 and 1 (of the first message, not decodable: their section 5 is too short), 2, 3 and 4. -/
example : ∃ g, Grib2.read ⟨packedFile, 0, []⟩ = .ok g ∧ decodeAt exactCodecs g [4, 2, 3, 2] =
    [.err (.decodeError .bitMapIndicatorUnsupported), .ok (.done [some (23 / 40), some (3 / 20), some (37 / 40)]),
     .ok (.done [some 9, none, some 4]), .ok (.done [some (23 / 40), some (3 / 20), some (37 / 40)])] :=
  Outcome.exists_of_ok? (f := fun g => decodeAt exactCodecs g [4, 2, 3, 2]) (by decide +kernel)

/-- The file is one that C49 is about. -/
example : (∀ x ∈ [(([1, 2] : List UInt8), sampleRaw), ([], packedRaw)], NoMagic x.1 ∧ x.2.Ok) ∧
    packedFile.length < 2 ^ 64 := by
  refine ⟨?_, by decide +kernel⟩
  intro x hx
  simp only [List.mem_cons, List.not_mem_nil, or_false] at hx
  rcases hx with rfl | rfl
  · exact ⟨noMagic_of_short (by simp), sampleRaw_ok⟩
  · exact ⟨noMagic_of_short (by simp), packedRaw_ok⟩

/-- What `C49_simple` requires of a submessage, as a tuple. -/
def simpleFacts (m : SubMessage) : List Nat × Option Rat :=
  let s5 := octetsAt packedFile m.s5.2
  ([field (octetsAt packedFile m.s6.2) 0 6 6, field s5 0 10 11, s5.length, field s5 0 21 21, field s5 0 20 20],
    f32Value (field s5 0 12 15))

def simpleFactsAt (g : Grib2) (k : Nat) : Option (List Nat × Option Rat) :=
  (SubIter.drain (g.len + 1) g.iter)[k]?.map fun x => simpleFacts x.2

/-- Submessage 2 of the file (the first packed one) meets the hypotheses of `C49_simple`. -/
example : ∃ g, Grib2.read ⟨packedFile, 0, []⟩ = .ok g ∧ simpleFactsAt g 2 = some ([255, 0, 21, 0, 5], some (3 / 2)) :=
  Outcome.exists_of_ok? (f := fun g => simpleFactsAt g 2) (by decide +kernel)

end Grib.Props
