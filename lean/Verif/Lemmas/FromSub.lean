import Verif.Lemmas.Decoder
import Verif.Lemmas.Bitmap
import Verif.Props.Listing

/-! # Setting up a decoder from a submessage of an opened file -/

namespace Grib.Model

open Grib.Spec Grib.Props

/-- The walk through the sections of opened data. -/
theorem opened_walk {r : Rdr} {g : Grib2} (h : Grib2.read r = .ok g) :
    ∃ p t, Walk r.data r.pos r.pos g.sections p t := by
  rw [Grib2.read_eq] at h
  cases hc : collectResult (idxStreamItems (itemsR r).1).1 with
  | err e => rw [hc] at h; simp at h
  | panic => rw [hc] at h; simp at h
  | ok subs =>
    rw [hc] at h
    simp only [Outcome.ok.injEq] at h
    have h16 := (C16_recorded (itemsR r).1).2 ⟨subs, hc⟩
    have hsec : (itemsR r).1 = g.sections.map .ok := by rw [← h]; exact h16
    obtain ⟨sects, tail, p, t, h1, h2, -, -, h5⟩ := itemsR_spec r
    rw [hsec] at h1
    have ht : tail = [] := by
      rcases h5 with h5 | ⟨e, rfl⟩ | ⟨rfl, -⟩
      · exact h5
      · have : Outcome.err e ∈ g.sections.map (Outcome.ok (ε := ParseError)) := by rw [h1]; simp
        simp at this
      · have : Outcome.panic ∈ g.sections.map (Outcome.ok (ε := ParseError)) := by rw [h1]; simp
        simp at this
    subst ht
    rw [List.append_nil] at h1
    have : g.sections = sects := by
      have := congrArg (List.filterMap Outcome.ok?) h1
      simpa [List.filterMap_map, Function.comp_def, Outcome.ok?] using this
    exact ⟨p, t, this ▸ h2⟩

/-- A section 7 of a well-ordered message is followed by a section that is not a section 0. -/
theorem message_after_data {m : Message SectionInfo} (hm : m.Ok) {s : SectionInfo} (hs : s ∈ m.sections) (h7 : s.num = 7) :
    ∃ pre nxt post, m.sections = pre ++ s :: nxt :: post ∧ nxt.num ≠ 0 := by
  unfold Message.sections at hs
  rcases List.mem_cons.1 hs with rfl | hs
  · rw [hm.indicator] at h7; omega
  rcases List.mem_cons.1 hs with rfl | hs
  · rw [hm.ident] at h7; omega
  rcases List.mem_append.1 hs with hs | hs
  · obtain ⟨g, hg, hsg⟩ := List.mem_flatMap.1 hs
    have gok := hm.groups g hg
    have hsd : s = g.data := by
      unfold Group.sections at hsg
      simp only [List.mem_append, List.mem_cons, List.not_mem_nil, or_false] at hsg
      rcases hsg with (hsg | hsg) | hsg
      · have := gok.loc s (by simpa using hsg); omega
      · have := gok.grid s (by simpa using hsg); omega
      · rcases hsg with rfl | rfl | rfl | rfl
        · have := gok.prod; omega
        · have := gok.repr; omega
        · have := gok.bitmap; omega
        · rfl
    obtain ⟨A, B, hAB⟩ := List.append_of_mem hg
    obtain ⟨nxt, post, hnp, hn0⟩ : ∃ nxt post, B.flatMap Group.sections ++ [m.fin] = nxt :: post ∧ nxt.num ≠ 0 := by
      cases B with
      | nil => exact ⟨m.fin, [], rfl, by rw [hm.fin]; decide⟩
      | cons b B =>
        have bok := hm.groups b (by rw [hAB]; simp)
        cases hb : b.sections with
        | nil => simp [Group.sections] at hb
        | cons x xs =>
          refine ⟨x, xs ++ B.flatMap Group.sections ++ [m.fin], by simp [hb], ?_⟩
          have hx : x ∈ b.sections := by rw [hb]; simp
          unfold Group.sections at hx
          simp only [List.mem_append, List.mem_cons, List.not_mem_nil, or_false] at hx
          rcases hx with (hx | hx) | hx
          · have := bok.loc x (by simpa using hx); omega
          · have := bok.grid x (by simpa using hx); omega
          · rcases hx with rfl | rfl | rfl | rfl
            · have := bok.prod; omega
            · have := bok.repr; omega
            · have := bok.bitmap; omega
            · have := bok.data; omega
    refine ⟨m.indicator :: m.ident :: (A.flatMap Group.sections ++ (g.loc.toList ++ g.grid.toList ++ [g.prod, g.repr, g.bitmap])),
      nxt, post, ?_, hn0⟩
    unfold Message.sections
    rw [hAB, hsd, ← hnp]
    simp [Group.sections]
  · simp only [List.mem_singleton] at hs
    rw [hs, hm.fin] at h7; omega

/-- Every section of opened data lies within the data. -/
theorem opened_whole {r : Rdr} {g : Grib2} (h : Grib2.read r = .ok g) :
    ∀ s ∈ g.sections, s.offset + s.size ≤ r.data.length := by
  intro s hs
  obtain ⟨ms, hm, hsec, -, hf⟩ := opened_messages h
  have fs := hf s hs
  by_cases h6 : s.num ≤ 6
  · exact (fs.whole h6).1
  by_cases h8 : s.num = 8
  · have := fs.sect8 h8
    have h2 := this.2.1
    simp at h2; omega
  have h7 : s.num = 7 := by have := fs.num; omega
  have hs' := hs
  rw [hsec] at hs'
  obtain ⟨m, hmm, hsm⟩ := List.mem_flatMap.1 hs'
  obtain ⟨pre, nxt, post, e1, e2⟩ := message_after_data (hm m hmm) hsm h7
  obtain ⟨A, B, hAB⟩ := List.append_of_mem hmm
  have e3 : g.sections = (A.flatMap Message.sections ++ pre) ++ s :: nxt :: (post ++ B.flatMap Message.sections) := by
    rw [hsec, hAB]; simp [e1]
  obtain ⟨p, t, hw⟩ := opened_walk h
  have fn := hf nxt (by rw [e3]; simp)
  rw [e3] at hw
  obtain ⟨p1, t1, -, hw⟩ := Walk.append_inv hw
  have hnpos : nxt.offset + 4 ≤ r.data.length := by
    by_cases h8 : nxt.num = 8
    · have := (fn.sect8 h8).2.1; simpa using this
    · have := fn.header (by omega) (by have := fn.num; omega)
      omega
  cases hw with
  | message h1 => omega
  | sect h1 h2 h3 h4 h5 h6 =>
    cases h6 with
    | message h1' => exact absurd h1' e2
    | sect h1' h2' h3' h4' h5' h6' => omega

theorem readSlice_char (s : SectionInfo) (r : Rdr) (hb : IoEv.fail ∉ r.evs) (h5 : 5 ≤ s.size)
    (hw : s.offset + s.size ≤ r.data.length) :
    ∃ es, es <:+ r.evs ∧ readSectPayloadAsSlice s r = (.ok (payloadAt r.data s.offset s.size), ⟨r.data, s.offset + s.size, es⟩) := by
  obtain ⟨es, h1, h2⟩ := rdSeekStart_char (s.offset + 5) r hb
  obtain ⟨es', h3, h4⟩ := rdReadExact_char (s.size - 5) ⟨r.data, s.offset + 5, es⟩ (fun h => hb (h1.subset h))
  refine ⟨es', h3.trans h1, ?_⟩
  unfold readSectPayloadAsSlice
  rw [RM.bind_apply, h2]
  simp only
  rw [if_neg (by omega), h4, if_pos (by simp only; omega)]
  simp only [payloadAt, Prod.mk.injEq, Rdr.mk.injEq, true_and, and_true]
  omega

end Grib.Model

namespace Grib.Spec

/-- What a decoder is set up from, according to the octets of sections 3, 5, 6, 7 (given by offset and size):
number of points (section 3, octets 7-10), number of encoded points and template (section 5, octets 6-9 and 10-11), the
octets of sections 5 and 7 after the header, and the bitmap: the octets of section 6 after the indicator. -/
def decoderAt (data : List UInt8) (s3 s5 s6 s7 : Nat × Nat) : Grib.Model.Decoder where
  numPointsTotal := field data s3.1 7 10
  numPointsEncoded := field data s5.1 6 9
  templateNum := field data s5.1 10 11
  sect5 := payloadAt data s5.1 s5.2
  bitmap := (payloadAt data s6.1 s6.2).drop 1
  sect7 := payloadAt data s7.1 s7.2

end Grib.Spec

namespace Grib.Model

open Grib.Spec Grib.Props

/-- Setting up a decoder for a submessage whose sections are in the file. -/
theorem fromSub_char {data : List UInt8} {m : SubMessage} (h3 : Faithful data m.s3.2) (n3 : m.s3.2.num = 3)
    (h5 : Faithful data m.s5.2) (n5 : m.s5.2.num = 5) (h6 : Faithful data m.s6.2) (n6 : m.s6.2.num = 6)
    (h7 : Faithful data m.s7.2) (n7 : m.s7.2.num = 7) (w7 : m.s7.2.offset + m.s7.2.size ≤ data.length)
    (r : Rdr) (hr : r.data = data) (hb : IoEv.fail ∉ r.evs) :
    (Decoder.fromSub m r).2.data = data ∧ IoEv.fail ∉ (Decoder.fromSub m r).2.evs ∧
    (Decoder.fromSub m r).1 =
      (let d := decoderAt data (m.s3.2.offset, m.s3.2.size) (m.s5.2.offset, m.s5.2.size) (m.s6.2.offset, m.s6.2.size)
        (m.s7.2.offset, m.s7.2.size)
       let indicator := field data m.s6.2.offset 6 6
       if indicator = 0 then .ok d
       else if indicator = 255 then .ok { d with bitmap := createBitmap d.numPointsTotal }
       else .err (.decodeError .bitMapIndicatorUnsupported)) := by
  subst hr
  have p3 := faithful_payload h3 (by omega) (by omega)
  have p5 := faithful_payload h5 (by omega) (by omega)
  have w6 := h6.whole (by omega)
  have q6 := h6.header (by omega) (by omega)
  have q7 := h7.header (by omega) (by omega)
  have m6 := w6.2 (by omega)
  rw [n3] at p3
  rw [n5] at p5
  rw [n6] at m6
  simp only [minPayload] at p3 p5 m6
  have b3 := h3.body
  have b5 := h5.body
  have b6 := h6.body
  rw [n3] at b3
  rw [n5] at b5
  rw [n6] at b6
  simp only [BodyAt] at b3 b5 b6
  have i6 : field r.data m.s6.2.offset 6 6 = octet r.data (m.s6.2.offset + 5) := by
    simp [field, number, List.range_succ]
  obtain ⟨e6, f6, g6⟩ := readSlice_char m.s6.2 r hb (by omega) w6.1
  have l6 : (payloadAt r.data m.s6.2.offset m.s6.2.size).length = m.s6.2.size - 5 := payloadAt_length w6.1
  unfold Decoder.fromSub
  rw [b3, b5, b6]
  simp only [GridDefinition.numPoints, ReprDefinition.numPoints, ReprDefinition.reprTmplNum]
  have a1 := rdAs_payload (ε := GribError) (start := 1) (len := 4) p3.1 p3.2.1 (by omega)
  have a2 := rdAs_payload (ε := GribError) (start := 0) (len := 4) p5.1 p5.2.1 (by omega)
  have a3 := rdAs_payload (ε := GribError) (start := 4) (len := 2) p5.1 p5.2.1 (by omega)
  rw [if_pos (by omega)] at a1 a2 a3
  simp only [payloadAt] at a1 a2 a3
  rw [a1, a2, a3]
  simp only [Outcome.bind_ok]
  rw [i6]
  -- the three cases of the indicator
  by_cases c0 : octet r.data (m.s6.2.offset + 5) = 0
  · simp only [c0, if_true, g6, Outcome.mapErr]
    rw [if_neg (by omega)]
    simp only
    obtain ⟨e5, f5, g5⟩ := readSlice_char m.s5.2 ⟨r.data, m.s6.2.offset + m.s6.2.size, e6⟩ (fun h => hb (f6.subset h)) (by omega) p5.1
    obtain ⟨e7, f7, g7⟩ := readSlice_char m.s7.2 ⟨r.data, m.s5.2.offset + m.s5.2.size, e5⟩
      (fun h => hb (f6.subset (f5.subset h))) (by omega) w7
    simp only [g5, g7]
    exact ⟨trivial, fun h => hb (f6.subset (f5.subset (f7.subset h))), rfl⟩
  · by_cases c1 : octet r.data (m.s6.2.offset + 5) = 255
    · simp only [c1, if_true, show (255 : Nat) ≠ 0 by decide, if_false]
      obtain ⟨e5, f5, g5⟩ := readSlice_char m.s5.2 r hb (by omega) p5.1
      obtain ⟨e7, f7, g7⟩ := readSlice_char m.s7.2 ⟨r.data, m.s5.2.offset + m.s5.2.size, e5⟩
        (fun h => hb (f5.subset h)) (by omega) w7
      simp only [g5, g7, Outcome.mapErr]
      exact ⟨trivial, fun h => hb (f5.subset (f7.subset h)), rfl⟩
    · simp only [c0, c1, if_false]
      exact ⟨trivial, hb, trivial⟩

/-- The same for the submessages listed by an opened file, whatever was read before. -/
theorem fromSub_opened {r0 : Rdr} {g : Grib2} (h : Grib2.read r0 = .ok g) {ix : Nat × Nat} {m : SubMessage}
    (hm : (ix, m) ∈ SubIter.drain (g.len + 1) g.iter) (r : Rdr) (hr : r.data = r0.data) (hb : IoEv.fail ∉ r.evs) :
    (Decoder.fromSub m r).2.data = r0.data ∧ IoEv.fail ∉ (Decoder.fromSub m r).2.evs ∧
    (Decoder.fromSub m r).1 =
      (let d := decoderAt r0.data (m.s3.2.offset, m.s3.2.size) (m.s5.2.offset, m.s5.2.size) (m.s6.2.offset, m.s6.2.size)
        (m.s7.2.offset, m.s7.2.size)
       let indicator := field r0.data m.s6.2.offset 6 6
       if indicator = 0 then .ok d
       else if indicator = 255 then .ok { d with bitmap := createBitmap d.numPointsTotal }
       else .err (.decodeError .bitMapIndicatorUnsupported)) := by
  obtain ⟨-, -, -, -, -, hk⟩ := C17_accessors r0 g h ix m hm (ε := Unit)
  have k3 := hk (m.s3, 3) (by simp)
  have k5 := hk (m.s5, 5) (by simp)
  have k6 := hk (m.s6, 6) (by simp)
  have k7 := hk (m.s7, 7) (by simp)
  exact fromSub_char k3.2.2 k3.1 k5.2.2 k5.1 k6.2.2 k6.1 k7.2.2 k7.1
    (opened_whole h _ (List.mem_of_getElem? k7.2.1)) r hr hb

end Grib.Model
