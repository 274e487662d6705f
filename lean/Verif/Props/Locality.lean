import Verif.Lemmas.FromSub
import Verif.Lemmas.Concat

/-! # C78: what is read of a submessage depends on its own sections only -/

namespace Grib.Spec

open Grib.Model

/-- The octets of a section, header included. -/
def sectionOctets (data : List UInt8) (s : SectionInfo) : List UInt8 := (data.drop s.offset).take s.size

end Grib.Spec

namespace Grib.Props

open Grib.Model Grib.Spec

theorem octet_piece {data : List UInt8} {o n k : Nat} (h : k < n) :
    octet ((data.drop o).take n) k = octet data (o + k) := by
  simp [octet, List.getD_eq_getElem?_getD, List.getElem?_take, h]

theorem field_piece {data : List UInt8} {o n a b : Nat} (ha : 1 ≤ a) (hab : a ≤ b) (hb : b ≤ n) :
    field data o a b = field ((data.drop o).take n) 0 a b := by
  unfold field
  refine number_congr fun k hk => ?_
  rw [octet_piece (by omega)]
  congr 1; omega

theorem payloadAt_piece {data : List UInt8} {o n : Nat} :
    payloadAt data o n = ((data.drop o).take n).drop 5 := by
  rw [payloadAt, List.drop_take, List.drop_drop]

theorem same_size {r r' : Rdr} {g g' : Grib2} (h : Grib2.read r = .ok g) (h' : Grib2.read r' = .ok g')
    {s s' : SectionInfo} (hs : s ∈ g.sections) (hs' : s' ∈ g'.sections)
    (e : sectionOctets r.data s = sectionOctets r'.data s') : s.size = s'.size := by
  have a := opened_whole h s hs
  have b := opened_whole h' s' hs'
  have := congrArg List.length e
  simp only [sectionOctets, List.length_take, List.length_drop] at this
  omega

/-- C78: two submessages of opened data, be it of different files, at different places and with different sections around
them, whose sections 3, 5, 6 and 7 have the same octets are set up for decoding in the same way (so also decode to the same
values); the same holds for the headers. -/
theorem C78_locality (r r' : Rdr) (g g' : Grib2) (h : Grib2.read r = .ok g) (h' : Grib2.read r' = .ok g')
    (ix ix' : Nat × Nat) (m m' : SubMessage) (hm : (ix, m) ∈ SubIter.drain (g.len + 1) g.iter)
    (hm' : (ix', m') ∈ SubIter.drain (g'.len + 1) g'.iter)
    (e3 : sectionOctets r.data m.s3.2 = sectionOctets r'.data m'.s3.2)
    (e5 : sectionOctets r.data m.s5.2 = sectionOctets r'.data m'.s5.2)
    (e6 : sectionOctets r.data m.s6.2 = sectionOctets r'.data m'.s6.2)
    (e7 : sectionOctets r.data m.s7.2 = sectionOctets r'.data m'.s7.2)
    (rd rd' : Rdr) (hr : rd.data = r.data) (hr' : rd'.data = r'.data) (hb : IoEv.fail ∉ rd.evs) (hb' : IoEv.fail ∉ rd'.evs) :
    (Decoder.fromSub m rd).1 = (Decoder.fromSub m' rd').1 := by
  rw [(fromSub_opened h hm rd hr hb).2.2, (fromSub_opened h' hm' rd' hr' hb').2.2]
  obtain ⟨-, -, -, -, -, hk⟩ := C17_accessors r g h ix m hm (ε := Unit)
  obtain ⟨-, -, -, -, -, hk'⟩ := C17_accessors r' g' h' ix' m' hm' (ε := Unit)
  have size : ∀ x ∈ [(m.s3, 3), (m.s5, 5), (m.s6, 6), (m.s7, 7)], 5 + minPayload x.2 ≤ x.1.2.size := by
    intro x hx
    simp only [List.mem_cons, List.not_mem_nil, or_false] at hx
    have hx' : x ∈ [(m.s0, 0), (m.s1, 1), (m.s3, 3), (m.s4, 4), (m.s5, 5), (m.s6, 6), (m.s7, 7)] := by
      rcases hx with rfl | rfl | rfl | rfl <;> simp
    obtain ⟨k1, -, k3⟩ := hk x hx'
    have hn : 3 ≤ x.2 ∧ x.2 ≤ 7 := by rcases hx with rfl | rfl | rfl | rfl <;> simp
    have q := (k3.header (by omega) (by omega)).1
    by_cases h6 : x.2 ≤ 6
    · have := (k3.whole (by omega)).2 (by omega)
      rw [k1] at this
      omega
    · have h7 : x.2 = 7 := by omega
      rw [h7]
      simp only [minPayload]
      omega
  have s3 := size (m.s3, 3) (by simp)
  have s5 := size (m.s5, 5) (by simp)
  have s6 := size (m.s6, 6) (by simp)
  simp only [minPayload] at s3 s5 s6
  have mem := fun x hx => List.mem_of_getElem? (hk x hx).2.1
  have mem' := fun x hx => List.mem_of_getElem? (hk' x hx).2.1
  have z3 := same_size h h' (mem (m.s3, 3) (by simp)) (mem' (m'.s3, 3) (by simp)) e3
  have z5 := same_size h h' (mem (m.s5, 5) (by simp)) (mem' (m'.s5, 5) (by simp)) e5
  have z6 := same_size h h' (mem (m.s6, 6) (by simp)) (mem' (m'.s6, 6) (by simp)) e6
  have z7 := same_size h h' (mem (m.s7, 7) (by simp)) (mem' (m'.s7, 7) (by simp)) e7
  simp only [sectionOctets] at e3 e5 e6 e7 z3 z5 z6 z7
  have f6 : field r.data m.s6.2.offset 6 6 = field r'.data m'.s6.2.offset 6 6 := by
    rw [field_piece (n := m.s6.2.size) (by omega) (by omega) (by omega), e6,
      ← field_piece (by omega) (by omega) (by omega)]
  have ed : decoderAt r.data (m.s3.2.offset, m.s3.2.size) (m.s5.2.offset, m.s5.2.size) (m.s6.2.offset, m.s6.2.size)
        (m.s7.2.offset, m.s7.2.size) = decoderAt r'.data (m'.s3.2.offset, m'.s3.2.size) (m'.s5.2.offset, m'.s5.2.size)
        (m'.s6.2.offset, m'.s6.2.size) (m'.s7.2.offset, m'.s7.2.size) := by
    unfold decoderAt
    simp only
    rw [field_piece (data := r.data) (o := m.s3.2.offset) (n := m.s3.2.size) (by omega) (by omega) (by omega), e3,
      ← field_piece (by omega) (by omega) (by omega),
      field_piece (data := r.data) (o := m.s5.2.offset) (n := m.s5.2.size) (a := 6) (by omega) (by omega) (by omega), e5,
      ← field_piece (by omega) (by omega) (by omega),
      field_piece (data := r.data) (o := m.s5.2.offset) (n := m.s5.2.size) (a := 10) (by omega) (by omega) (by omega), e5,
      ← field_piece (by omega) (by omega) (by omega),
      payloadAt_piece (data := r.data) (o := m.s5.2.offset), e5, ← payloadAt_piece,
      payloadAt_piece (data := r.data) (o := m.s6.2.offset), e6, ← payloadAt_piece,
      payloadAt_piece (data := r.data) (o := m.s7.2.offset), e7, ← payloadAt_piece]
  simp only
  rw [ed, f6]

/-- C78: the header accessors likewise, each from the octets of its own section. -/
theorem C78_headers {ε : Type} (r r' : Rdr) (g g' : Grib2) (h : Grib2.read r = .ok g) (h' : Grib2.read r' = .ok g')
    (ix ix' : Nat × Nat) (m m' : SubMessage) (hm : (ix, m) ∈ SubIter.drain (g.len + 1) g.iter)
    (hm' : (ix', m') ∈ SubIter.drain (g'.len + 1) g'.iter) :
    (sectionOctets r.data m.s0.2 = sectionOctets r'.data m'.s0.2 →
      (m.indicator : Outcome ε Indicator) = m'.indicator) ∧
    (sectionOctets r.data m.s1.2 = sectionOctets r'.data m'.s1.2 →
      (m.identification : Outcome ε Identification) = m'.identification) ∧
    (sectionOctets r.data m.s3.2 = sectionOctets r'.data m'.s3.2 →
      (m.gridDef : Outcome ε GridDefinition) = m'.gridDef) ∧
    (sectionOctets r.data m.s4.2 = sectionOctets r'.data m'.s4.2 →
      (m.prodDef : Outcome ε ProdDefinition) = m'.prodDef) ∧
    (sectionOctets r.data m.s5.2 = sectionOctets r'.data m'.s5.2 →
      (m.reprDef : Outcome ε ReprDefinition) = m'.reprDef) := by
  obtain ⟨a0, a1, a3, a4, a5, hk⟩ := C17_accessors r g h ix m hm (ε := ε)
  obtain ⟨b0, b1, b3, b4, b5, hk'⟩ := C17_accessors r' g' h' ix' m' hm' (ε := ε)
  rw [a0, a1, a3, a4, a5, b0, b1, b3, b4, b5]
  have k0 := ((hk (m.s0, 0) (by simp)).2.2.sect0 (hk (m.s0, 0) (by simp)).1).1
  have k0' := ((hk' (m'.s0, 0) (by simp)).2.2.sect0 (hk' (m'.s0, 0) (by simp)).1).1
  simp only at k0 k0'
  simp only [sectionOctets]
  refine ⟨fun e => ?_, fun e => ?_, fun e => ?_, fun e => ?_, fun e => ?_⟩
  · rw [k0, k0'] at e
    rw [field_piece (n := 16) (by omega) (by omega) (by omega), e, ← field_piece (by omega) (by omega) (by omega),
      field_piece (data := r.data) (o := m.s0.2.offset) (n := 16) (by omega) (by omega) (by omega), e,
      ← field_piece (by omega) (by omega) (by omega)]
  all_goals rw [payloadAt_piece, e, ← payloadAt_piece]

/-- In the sample file repeated, the two submessages are at different places and have the same octets in all sections, so
they decode in the same way. -/
example : ∃ g a b, Grib2.read ⟨sampleFile ++ sampleFile, 0, []⟩ = .ok g ∧ SubIter.drain (g.len + 1) g.iter = [a, b] ∧
    a.2.s5.2.offset ≠ b.2.s5.2.offset ∧
    (Decoder.fromSub a.2 ⟨sampleFile ++ sampleFile, 0, []⟩).1 = (Decoder.fromSub b.2 ⟨sampleFile ++ sampleFile, 0, []⟩).1 := by
  have key : ((Grib2.read ⟨sampleFile ++ sampleFile, 0, []⟩).ok?.map fun g : Grib2 =>
      match SubIter.drain (g.len + 1) g.iter with
      | [a, b] => decide (a.2.s5.2.offset ≠ b.2.s5.2.offset ∧
        ∀ x ∈ [(a.2.s3.2, b.2.s3.2), (a.2.s5.2, b.2.s5.2), (a.2.s6.2, b.2.s6.2), (a.2.s7.2, b.2.s7.2)],
          sectionOctets (sampleFile ++ sampleFile) x.1 = sectionOctets (sampleFile ++ sampleFile) x.2)
      | _ => false) = some true := by decide +kernel
  obtain ⟨g, hg, h2⟩ := Outcome.exists_of_ok? key
  split at h2
  · next a b hd =>
    simp only [decide_eq_true_eq] at h2
    refine ⟨g, a, b, hg, hd, h2.1, ?_⟩
    exact C78_locality _ _ g g hg hg a.1 b.1 a.2 b.2 (by rw [hd]; simp) (by rw [hd]; simp) (h2.2 (a.2.s3.2, b.2.s3.2) (by simp))
      (h2.2 (a.2.s5.2, b.2.s5.2) (by simp)) (h2.2 (a.2.s6.2, b.2.s6.2) (by simp)) (h2.2 (a.2.s7.2, b.2.s7.2) (by simp)) _ _ rfl rfl (by simp) (by simp)
  · simp at h2

end Grib.Props
