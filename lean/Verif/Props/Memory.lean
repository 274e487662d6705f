import Verif.Lemmas.Memory
import Verif.Lemmas.FromSub
import Verif.Props.Cost
import Verif.Props.RunLengthOutcome

/-! # C85: memory requested on the word of a file

Buffers are requested with the size a section states, before it is known whether the file has so many octets. -/

namespace Grib.Props

open Grib.Model Grib.Spec

/-- Counting the buffers changes nothing of what opening does: the counting program is the model's. -/
theorem C85_same (r : Rdr) : (Mem.Grib2.read r).1 = Grib2.read r := Mem.read_fst r

/-- The buffers for the sections of a walk lie side by side in the data. -/
theorem walk_buffers {data : List UInt8} {p t p' t' : Nat} {ss : List SectionInfo} (h : Walk data p t ss p' t') :
    p ≤ t → (∀ s ∈ ss, Faithful data s) → (ss.flatMap buffersOf).sum ≤ data.length - p := by
  have key : ∀ s : SectionInfo, Faithful data s → (buffersOf s).sum ≤ s.size ∧
      ((buffersOf s).sum ≠ 0 → s.offset + s.size ≤ data.length) := by
    intro s hs
    unfold buffersOf
    split
    · rename_i h1
      have := hs.whole (by omega)
      simp only [List.sum_cons, List.sum_nil]
      omega
    · split
      · rename_i h1
        have := hs.whole (by omega)
        simp only [List.sum_cons, List.sum_nil]
        omega
      · simp
  induction h with
  | nil => intro _ _; simp
  | @message p p' t' s ss h1 h2 h3 h4 ih =>
    intro _ hf
    have k := h2.1
    have i := ih (by omega) (fun x hx => hf x (List.mem_cons_of_mem _ hx))
    have hb : buffersOf s = [] := by simp [buffersOf, h1]
    rw [List.flatMap_cons, hb]
    simp only [List.nil_append]
    omega
  | @sect p t p' t' s ss h1 h2 h3 h4 h5 h6 ih =>
    intro _ hf
    have i := ih h4 (fun x hx => hf x (List.mem_cons_of_mem _ hx))
    have k := key _ (hf _ List.mem_cons_self)
    rw [List.flatMap_cons, List.sum_append]
    by_cases hz : (buffersOf s).sum = 0
    · omega
    · have := k.2 hz
      omega

/-- The section streams with and without counting. -/
theorem counted_items (r : Rdr) :
    (Mem.collectN (r.data.length + 2) (SectStream.new r)).1.1 = (itemsR r).1 := by
  rw [Mem.collectN_fst]
  exact (collect_new r).1

/-- C85: whatever the data and whatever the reader does, the buffers requested when opening are those of the sections that
are read, which together are not larger than the data, and at most one more; and each is smaller than 4 GiB. -/
theorem C85_opening_any (r : Rdr) :
    ∃ (sects : List SectionInfo) (last : List Nat), (Mem.Grib2.read r).2 = sects.flatMap buffersOf ++ last ∧ last.length ≤ 1 ∧
      (∀ s ∈ sects, Faithful r.data s) ∧ (sects.flatMap buffersOf).sum ≤ r.data.length - r.pos ∧
      ∀ b ∈ (Mem.Grib2.read r).2, b + 5 < 2 ^ 32 := by
  obtain ⟨sects, tail, last, a1, a2, a3, a4, a5, a6⟩ := Mem.collectN_snd (r.data.length + 2) (SectStream.new r)
  obtain ⟨sects', tail', p', t', b1, b2, b3, b4⟩ := itemsR_any r
  rw [counted_items, b1] at a1
  have hnot : ∀ s, Outcome.ok s ∉ tail' := by
    rcases b4 with rfl | ⟨e, rfl⟩ | ⟨rfl, -⟩ <;> simp
  have e : sects' = sects := by
    clear b1 b2 b3 a3
    induction sects' generalizing sects with
    | nil =>
      cases sects with
      | nil => rfl
      | cons s ss =>
        simp only [List.map_nil, List.nil_append, List.map_cons, List.cons_append] at a1
        exact absurd (a1 ▸ List.mem_cons_self) (hnot s)
    | cons s ss ih =>
      cases sects with
      | nil =>
        simp only [List.map_nil, List.nil_append, List.map_cons, List.cons_append] at a1
        exact absurd (a1 ▸ List.mem_cons_self) (a2 s)
      | cons s' ss' =>
        simp only [List.map_cons, List.cons_append, List.cons.injEq, Outcome.ok.injEq] at a1
        obtain ⟨rfl, a1⟩ := a1
        rw [ih ss' a1]
  subst e
  refine ⟨sects', last, a3, a4, fun s hs => (b3 s hs).1, walk_buffers b2 (Nat.le_refl _) (fun s hs => (b3 s hs).1), a6⟩

/-- C85: if the data are opened, the buffers requested are exactly those of their sections -- none for packed data -- and
together they are not larger than the data. -/
theorem C85_opening (r : Rdr) (g : Grib2) (h : Grib2.read r = .ok g) :
    (Mem.Grib2.read r).2 = g.sections.flatMap buffersOf ∧ (Mem.Grib2.read r).2.sum ≤ r.data.length - r.pos := by
  obtain ⟨sects, tail, last, a1, a2, a3, a4, a5, a6⟩ := Mem.collectN_snd (r.data.length + 2) (SectStream.new r)
  have e := ((read_result r).1 g h).1
  rw [counted_items, ← e] at a1
  have ht : tail = [] := by
    cases tail with
    | nil => rfl
    | cons x xs =>
      have hx : x ∈ g.sections.map Outcome.ok := by rw [a1]; simp
      obtain ⟨s, -, rfl⟩ := List.mem_map.1 hx
      exact absurd List.mem_cons_self (a2 s)
  have hl := a5 ht
  subst ht hl
  have hs : g.sections = sects := by
    rw [List.append_nil] at a1
    exact (List.map_inj_right (fun a b h => Outcome.ok.inj h)).1 a1
  subst hs
  rw [List.append_nil] at a3
  obtain ⟨sects', tail', p', t', b1, b2, b3, b4⟩ := itemsR_any r
  have : g.sections = sects' := by
    have ht' : tail' = [] := by
      rcases b4 with h | ⟨e', rfl⟩ | ⟨rfl, -⟩
      · exact h
      · have : (Outcome.err e' : Item) ∈ g.sections.map Outcome.ok := by rw [e, b1]; simp
        simp at this
      · have : (Outcome.panic : Item) ∈ g.sections.map Outcome.ok := by rw [e, b1]; simp
        simp at this
    rw [ht', List.append_nil, ← e] at b1
    exact (List.map_inj_right (fun a b h => Outcome.ok.inj h)).1 b1
  refine ⟨a3, ?_⟩
  show (Mem.collectN (r.data.length + 2) (SectStream.new r)).2.sum ≤ _
  rw [a3, this]
  exact walk_buffers b2 (Nat.le_refl _) (fun s hs => (b3 s hs).1)

/-- C85: a file of 21 octets makes opening request a buffer of 4294967290 octets (and then fail). -/
theorem C85_amplified :
    let data : List UInt8 := [0x47, 0x52, 0x49, 0x42, 0, 0, 0, 2, 0, 0, 0, 0, 0, 0, 1, 0, 255, 255, 255, 255, 1]
    (Mem.Grib2.read ⟨data, 0, []⟩).2 = [4294967290] ∧ Grib2.read ⟨data, 0, []⟩ = .err (.readError .unexpectedEof) := by
  decide +kernel

/-- C85: the buffers of the decoder of a submessage of opened data: sections 5 and 7 without their headers, which are in the
data, and the bitmap: of section 6 what follows the indicator, or if there is no bitmap one bit for every point that section 3
states, whatever the length of the data. -/
theorem C85_decoding (r0 : Rdr) (g : Grib2) (h : Grib2.read r0 = .ok g) (ix : Nat × Nat) (m : SubMessage)
    (hm : (ix, m) ∈ SubIter.drain (g.len + 1) g.iter) (r : Rdr) (hr : r.data = r0.data) (hb : IoEv.fail ∉ r.evs)
    (t : Decoder) (ht : (Decoder.fromSub m r).1 = .ok t) :
    t.sect5.length + 5 = m.s5.2.size ∧ m.s5.2.offset + m.s5.2.size ≤ r0.data.length ∧
    t.sect7.length + 5 = m.s7.2.size ∧ m.s7.2.offset + m.s7.2.size ≤ r0.data.length ∧
    (field r0.data m.s6.2.offset 6 6 = 0 →
      t.bitmap.length + 6 = m.s6.2.size ∧ m.s6.2.offset + m.s6.2.size ≤ r0.data.length) ∧
    (field r0.data m.s6.2.offset 6 6 ≠ 0 →
      t.bitmap.length = (field r0.data m.s3.2.offset 7 10 + 7) / 8 ∧ t.bitmap.length ≤ 2 ^ 29) := by
  obtain ⟨-, -, e⟩ := fromSub_opened h hm r hr hb
  rw [ht] at e
  obtain ⟨-, -, -, -, -, hk⟩ := C17_accessors r0 g h ix m hm (ε := Unit)
  have k5 := hk (m.s5, 5) (by simp)
  have k6 := hk (m.s6, 6) (by simp)
  have k7 := hk (m.s7, 7) (by simp)
  have w5 := opened_whole h _ (List.mem_of_getElem? k5.2.1)
  have w6 := opened_whole h _ (List.mem_of_getElem? k6.2.1)
  have w7 := opened_whole h _ (List.mem_of_getElem? k7.2.1)
  have z5 := (k5.2.2.header (by rw [k5.1]; simp) (by rw [k5.1]; simp)).1
  have z6 := (k6.2.2.whole (by rw [k6.1]; simp)).2 (by rw [k6.1]; simp)
  have z7 := (k7.2.2.header (by rw [k7.1]; simp) (by rw [k7.1]; simp)).1
  have l5 := payloadAt_length w5
  have l6 := payloadAt_length w6
  have l7 := payloadAt_length w7
  have k6n : m.s6.2.num = 6 := k6.1
  simp only [k6n, minPayload] at z6
  have lt3 : field r0.data m.s3.2.offset 7 10 < 2 ^ 32 := number_lt ..
  dsimp only at e l5 l6 l7 w5 w6 w7 z5 z7
  split at e
  · rename_i h0
    have e := Outcome.ok.inj e
    subst e
    refine ⟨?_, w5, ?_, w7, fun _ => ⟨?_, w6⟩, fun hn => absurd h0 hn⟩
    · simp only [decoderAt]; omega
    · simp only [decoderAt]; omega
    · simp only [decoderAt, List.length_drop]; omega
  · rename_i h0
    split at e
    · have e := Outcome.ok.inj e
      subst e
      have lb : (createBitmap (field r0.data m.s3.2.offset 7 10)).length = (field r0.data m.s3.2.offset 7 10 + 7) / 8 := by
        unfold createBitmap
        split <;> simp only [List.length_replicate] <;> omega
      refine ⟨?_, w5, ?_, w7, fun hn => absurd hn h0, fun _ => ⟨?_, ?_⟩⟩
      · simp only [decoderAt]; omega
      · simp only [decoderAt]; omega
      · simp only [decoderAt]; exact lb
      · simp only [decoderAt]; rw [lb]; omega
    · cases e

theorem digitsLE_length {base k : Nat} : ∀ {fuel n : Nat}, n < base ^ k → (digitsLE base fuel n).length ≤ k := by
  induction k with
  | zero =>
    intro fuel n h
    have : n = 0 := by simpa using h
    cases fuel <;> simp [digitsLE, this]
  | succ k ih =>
    intro fuel n h
    cases fuel with
    | zero => simp [digitsLE]
    | succ f =>
      rw [digitsLE]
      split
      · simp
      · rw [List.length_cons]
        exact Nat.succ_le_succ (ih (Nat.div_lt_of_lt_mul (by rw [Nat.pow_succ] at h; rwa [Nat.mul_comm])))

theorem groupRuns_same (n x : Nat) : groupRuns true (List.replicate (n + 1) x) = [(x, n + 1)] := by
  induction n with
  | zero => rfl
  | succ n ih => rw [List.replicate_succ, groupRuns, ih]; simp

/-- C85: run-length packing turns five octets into any number of values up to 255^4, that is four thousand millions. -/
theorem C85_runs {F : Type} (ops : FloatOps F) (n : Nat) (h1 : 1 ≤ n) (h2 : n ≤ 255 ^ 4) :
    ∃ (t : Decoder) (vs : List F), t.templateNum = 200 ∧ t.sect5.length = 12 ∧ t.sect7.length ≤ 5 ∧ vs.length = n ∧
      runLengthDecode ops t = .ok (vs.map .ok) := by
  obtain ⟨k, rfl⟩ : ∃ k, n = k + 1 := ⟨n - 1, by omega⟩
  let s5 : List UInt8 := [0, 0, 0, 0, 0, 200, 8, 0, 0, 0, 0, 0]
  let levels := List.replicate (k + 1) 0
  have hp : runLengthTemplate s5 = ⟨8, 0, 0, 0⟩ := by decide +kernel
  let p : RunLengthTemplate := ⟨8, 0, 0, 0⟩
  have hruns : encodeRuns p.base levels = [⟨0, digitsLE 255 (k + 1) k⟩] := by
    show (groupRuns true (List.replicate (k + 1) 0)).map _ = _
    rw [groupRuns_same]
    rfl
  have hsym : (runSymbols p.maxv (encodeRuns p.base levels)).length ≤ 5 := by
    rw [hruns]
    simp only [runSymbols, List.flatMap_cons, List.flatMap_nil, List.append_nil, Run.symbols, List.length_cons, List.length_map]
    have := digitsLE_length (base := 255) (k := 4) (fuel := k + 1) (n := k) (by omega)
    omega
  let t : Decoder := ⟨k + 1, k + 1, 200, s5, [], packInts 8 (runSymbols p.maxv (encodeRuns p.base levels))⟩
  have h7 : t.sect7.length = (runSymbols p.maxv (encodeRuns p.base levels)).length := by
    simp only [t, packInts, packOctets_length, flatMap_toBits_length]; omega
  have key := C67_round_trip ops t p hp.symm (Nat.le_refl _) (by decide) (by decide) (by decide) levels
    (fun l hl => by rw [List.eq_of_mem_replicate hl]; decide) (by simp [t, levels])
    (by simp only [levels, List.length_replicate]; omega) _ rfl rfl
  rw [if_pos (by rw [h7]; show _ < 8 * _; omega)] at key
  refine ⟨t, levels.map (levelValue ops t.sect5), rfl, rfl, by omega, by simp [levels], ?_⟩
  rw [key, List.map_map]
  rfl

/-- Two messages with two submessages each: buffers for sections 1, 3, 4, 5, then 2, 3, 4, 5 of each, none for the sections 6
(which have only the indicator) and 7. -/
example : (Mem.Grib2.read ⟨messagesBytes sampleMessagesFile, 0, []⟩).2 = [16, 9, 4, 6, 3, 9, 4, 6, 16, 9, 4, 6, 3, 9, 4, 6] ∧
    (Grib2.read ⟨messagesBytes sampleMessagesFile, 0, []⟩).ok?.isSome = true := by decide +kernel

/-- Decoders of its submessages can be set up: contents of sections 5 and 7 and the bitmap. -/
example : ((Grib2.read ⟨messagesBytes sampleMessagesFile, 0, []⟩).ok?.map fun (g : Grib2) =>
      (SubIter.drain (g.len + 1) g.iter).map fun (x : (Nat × Nat) × SubMessage) =>
        (Decoder.fromSub x.2 g.reader).1.ok?.map fun (t : Decoder) => (t.sect5.length, t.sect7.length, t.bitmap.length)) =
    some [some (6, 0, 0), some (6, 1, 1), some (6, 0, 0), some (6, 1, 1)] := by decide +kernel

end Grib.Props
