import Verif.Lemmas.ReaderCost
import Verif.Props.AnyReader

/-! # C80: how often the underlying reader is called -/

namespace Grib.Spec

open Grib.Model

/-- The same opened data, with another schedule of what the reader does later. -/
def withSchedule (es : List IoEv) (g : Grib2) : Grib2 := { g with reader := { g.reader with evs := es } }

end Grib.Spec

namespace Grib.Props

open Grib.Model Grib.Spec

/-- The sections of a walk have at least four octets each in the data. -/
theorem walk_count {data : List UInt8} {p t p' t' : Nat} {ss : List SectionInfo} (h : Walk data p t ss p' t') :
    p ≤ t → (∀ s ∈ ss, Faithful data s) → 4 * ss.length ≤ data.length - p := by
  have four : ∀ s : SectionInfo, Faithful data s → 4 ≤ s.size ∧ s.offset + 4 ≤ data.length := by
    intro s hs
    have h8 := hs.num
    by_cases h0 : s.num = 0
    · have := hs.sect0 h0
      have := (hs.whole (by omega)).1
      omega
    · by_cases h1 : s.num = 8
      · have := (hs.sect8 h1)
        have k := this.2
        unfold Octets at k
        have := this.1
        have := congrArg List.length k.2
        simp at this
        omega
      · have := hs.header (by omega) (by omega)
        omega
  induction h with
  | nil => intro _ _; simp
  | message h1 h2 h3 h4 ih =>
    intro _ hf
    have k := h2.1
    have := ih (by omega) (fun x hx => hf x (List.mem_cons_of_mem _ hx))
    have := four _ (hf _ List.mem_cons_self)
    rw [List.length_cons]
    omega
  | sect h1 h2 h3 h4 h5 h6 ih =>
    intro _ hf
    have := ih h4 (fun x hx => hf x (List.mem_cons_of_mem _ hx))
    have := four _ (hf _ List.mem_cons_self)
    rw [List.length_cons]
    omega

theorem opening_makes (data : List UInt8) (pos : Nat) :
    ∃ (n : Nat) (sects : List SectionInfo) (tail : List Item),
      (itemsR ⟨data, pos, []⟩).1 = sects.map .ok ++ tail ∧ (∀ s, .ok s ∉ tail) ∧
      n ≤ 3 * sects.length + 4 + 2 * ((data.length - pos) / 4081) ∧
      ∀ es, itemsR ⟨data, pos, List.replicate n .full ++ es⟩ =
        ((itemsR ⟨data, pos, []⟩).1, ⟨data, (itemsR ⟨data, pos, []⟩).2.pos, es⟩) :=
  collectR_makes (fuel := data.length + 2) (inv_start pos)

/-- From the items of the stream to opening. -/
theorem read_of_items {data : List UInt8} {pos n : Nat} (h : ∀ es, itemsR ⟨data, pos, List.replicate n .full ++ es⟩ =
      ((itemsR ⟨data, pos, []⟩).1, ⟨data, (itemsR ⟨data, pos, []⟩).2.pos, es⟩)) (es : List IoEv) :
    Grib2.read ⟨data, pos, List.replicate n .full ++ es⟩ = (Grib2.read ⟨data, pos, []⟩).bind fun g => .ok (withSchedule es g) := by
  rw [Grib2.read_eq, Grib2.read_eq, h es]
  have hd : (itemsR ⟨data, pos, []⟩).2.data = data := (collectR_honest _ _ _ _).1
  cases collectResult (idxStreamItems (itemsR ⟨data, pos, []⟩).1).1 with
  | ok subs =>
    simp only [Outcome.bind, Outcome.ok.injEq, withSchedule, Grib2.mk.injEq, and_true]
    rw [hd]
  | err e => rfl
  | panic => rfl

/-- C80: opening data makes at most three calls to the reader for each section, two for each 4081 octets of the data, and
four more; what calls after these would do has no influence. -/
theorem C80_opening (data : List UInt8) (pos : Nat) (g : Grib2) (h : Grib2.read ⟨data, pos, []⟩ = .ok g) :
    ∃ n, n ≤ 3 * g.sections.length + 2 * ((data.length - pos) / 4081) + 4 ∧
      ∀ es, Grib2.read ⟨data, pos, List.replicate n .full ++ es⟩ = .ok (withSchedule es g) := by
  obtain ⟨n, sects, tail, h1, h2, h3, h4⟩ := opening_makes data pos
  have e := ((read_result _).1 g h).1
  rw [h1] at e
  have hl : sects.length ≤ g.sections.length := by
    have := congrArg List.length e
    simp at this
    omega
  refine ⟨n, by omega, fun es => ?_⟩
  rw [read_of_items h4, h]
  rfl

/-- C80: and whether or not it succeeds, it ends after a number of calls that is linear in the length of the data. -/
theorem C80_opening_any (data : List UInt8) (pos : Nat) :
    ∃ n, n ≤ data.length - pos + 4 ∧
      ∀ es, Grib2.read ⟨data, pos, List.replicate n .full ++ es⟩ =
        (Grib2.read ⟨data, pos, []⟩).bind fun g => .ok (withSchedule es g) := by
  obtain ⟨n, sects, tail, h1, h2, h3, h4⟩ := opening_makes data pos
  refine ⟨n, ?_, read_of_items h4⟩
  obtain ⟨sects', tail', p', t', b1, b2, b3, b4⟩ := itemsR_any ⟨data, pos, []⟩
  have hle : 4 * sects'.length ≤ data.length - pos := walk_count b2 (Nat.le_refl _) (fun s hs => (b3 s hs).1)
  have : sects.length ≤ sects'.length := by
    rw [h1] at b1
    have hnot : ∀ s, Outcome.ok s ∉ tail' := by
      rcases b4 with rfl | ⟨e, rfl⟩ | ⟨rfl, -⟩ <;> simp
    apply Classical.byContradiction
    intro hlt
    have e1 : (sects.map Outcome.ok ++ tail)[sects'.length]? = some (Outcome.ok sects[sects'.length]) := by
      rw [List.getElem?_append_left (by simp; omega), List.getElem?_map, List.getElem?_eq_getElem (by omega)]
      rfl
    rw [b1, List.getElem?_append_right (by simp)] at e1
    exact hnot _ (List.mem_of_getElem? e1)
  omega

/-! ## Decoding -/

/-- At most `hi` calls, at most `lo` on success; the rest of the schedule has no influence. -/
def MakesG {α : Type} (lo hi : Nat) (data : List UInt8) (x : Rdr → Outcome GribError α × Rdr) : Prop :=
  ∀ p, ∃ n o q, n ≤ hi ∧ (∀ a, o = .ok a → n ≤ lo) ∧ x ⟨data, p, []⟩ = (o, ⟨data, q, []⟩) ∧
    ∀ es, x ⟨data, p, List.replicate n .full ++ es⟩ = (o, ⟨data, q, es⟩)

theorem MakesG.const {α : Type} {data : List UInt8} (o : Outcome GribError α) : MakesG 0 0 data (fun r => (o, r)) :=
  fun p => ⟨0, o, p, by omega, fun _ _ => by omega, rfl, fun _ => rfl⟩

theorem MakesG.mono {α : Type} {lo hi lo' hi' : Nat} {data : List UInt8} {x : Rdr → Outcome GribError α × Rdr}
    (h : MakesG lo hi data x) (h1 : lo ≤ lo') (h2 : hi ≤ hi') : MakesG lo' hi' data x := by
  intro p
  obtain ⟨n, o, q, a1, a2, a3⟩ := h p
  exact ⟨n, o, q, by omega, fun a ha => Nat.le_trans (a2 a ha) h1, a3⟩

theorem MakesG.seq {α β : Type} {lo hi lo' hi' : Nat} {data : List UInt8} {x : Rdr → Outcome GribError α × Rdr}
    {f : α → Rdr → Outcome GribError β × Rdr} (hx : MakesG lo hi data x) (hf : ∀ a, MakesG lo' hi' data (f a)) :
    MakesG (lo + lo') (max hi (lo + hi')) data (seqG x f) := by
  intro p
  obtain ⟨n, o, q, a1, a2, a3, a4⟩ := hx p
  cases o with
  | err e =>
    refine ⟨n, .err e, q, by omega, fun a h => (by cases h), by simp only [seqG, a3], fun es => by simp only [seqG, a4]⟩
  | panic =>
    refine ⟨n, .panic, q, by omega, fun a h => (by cases h), by simp only [seqG, a3], fun es => by simp only [seqG, a4]⟩
  | ok a =>
    obtain ⟨n', o', q', b1, b2, b3, b4⟩ := hf a q
    have := a2 a rfl
    refine ⟨n + n', o', q', by omega, fun b hb => ?_, by simp only [seqG, a3, b3], fun es => ?_⟩
    · have := b2 b hb; omega
    · rw [← List.replicate_append_replicate, List.append_assoc]
      simp only [seqG, a4, b4]

theorem sliceG_makes (s : SectionInfo) (data : List UInt8) : MakesG 2 3 data (sliceG s) := by
  intro p
  obtain ⟨k, h1, h2, h3⟩ := readSectPayloadAsSlice_makes s data p
  obtain ⟨o, q, hc⟩ := (readSectPayloadAsSlice_honest s).on_cursor data p
  rw [hc] at h3
  refine ⟨k, o.mapErr .parseError, q, h2, ?_, by simp only [sliceG, hc], fun es => by simp only [sliceG, h1 es, hc]⟩
  intro b hb
  cases o with
  | ok a => exact h3 a rfl
  | err e => cases hb
  | panic => cases hb

/-- C80: setting up the decoder of a submessage makes at most seven calls to the reader, and at most six if it succeeds (for
each of sections 6, 5 and 7 a seek and a read, and one more read if the data end too early); what calls after these would do
has no influence. -/
theorem C80_decoding (m : SubMessage) (data : List UInt8) (pos : Nat) :
    ∃ n, n ≤ 7 ∧ (∀ t, (Decoder.fromSub m ⟨data, pos, []⟩).1 = .ok t → n ≤ 6) ∧
      ∀ es, (Decoder.fromSub m ⟨data, pos, List.replicate n .full ++ es⟩).1 = (Decoder.fromSub m ⟨data, pos, []⟩).1 ∧
        (Decoder.fromSub m ⟨data, pos, List.replicate n .full ++ es⟩).2.evs = es := by
  have key : MakesG 6 7 data (Decoder.fromSub m) := by
    by_cases h : ∃ b3 b5 i, m.s3.2.body = some (.section3 b3) ∧ m.s5.2.body = some (.section5 b5) ∧
        m.s6.2.body = some (.section6 i)
    · obtain ⟨b3, b5, i, h3, h5, h6⟩ := h
      rw [fromSub_seq h3 h5 h6]
      have hb : ∀ total, MakesG 2 3 data (bitmapG m i total) := by
        intro total
        unfold bitmapG
        split
        · exact ((sliceG_makes _ _).seq (lo' := 0) (hi' := 0) fun _ => MakesG.const _).mono (by omega) (by omega)
        · split
          · exact (MakesG.const _).mono (by omega) (by omega)
          · exact (MakesG.const _).mono (by omega) (by omega)
      have hr : ∀ total bitmap, MakesG 4 5 data (restG m b5 total bitmap) := by
        intro total bitmap
        refine ((MakesG.const _).seq (lo' := 4) (hi' := 5) fun x => ?_).mono (by omega) (by omega)
        refine ((sliceG_makes _ _).seq (lo' := 2) (hi' := 3) fun _ => ?_).mono (by omega) (by omega)
        exact ((sliceG_makes _ _).seq (lo' := 0) (hi' := 0) fun _ => MakesG.const _).mono (by omega) (by omega)
      refine ((MakesG.const _).seq (lo' := 6) (hi' := 7) fun total => ?_).mono (by omega) (by omega)
      exact ((hb total).seq (hr total)).mono (by omega) (by omega)
    · have e : Decoder.fromSub m = fun r => (.err .internalDataError, r) := by
        funext r
        unfold Decoder.fromSub
        split
        · rename_i b3 b5 i h3 h5 h6
          exact absurd ⟨b3, b5, i, h3, h5, h6⟩ h
        · rfl
      rw [e]
      exact (MakesG.const _).mono (by omega) (by omega)
  obtain ⟨n, o, q, h1, h2, h3, h4⟩ := key pos
  refine ⟨n, h1, ?_, fun es => ?_⟩
  · rw [h3]; exact h2
  · rw [h4, h3]; exact ⟨rfl, rfl⟩

/-- The sample file (eight sections) opens with 17 calls, whatever comes later, and not with 16. -/
example : (∃ e, Grib2.read ⟨sampleFile, 0, List.replicate 16 .full ++ [.fail]⟩ = .err e) ∧
    ∃ g, Grib2.read ⟨sampleFile, 0, List.replicate 17 .full ++ [.fail]⟩ = .ok g ∧ g.sections.length = 8 :=
  ⟨⟨.readError .io, by decide +kernel⟩,
    Outcome.exists_of_ok? (f := fun g : Grib2 => g.sections.length) (by decide +kernel)⟩

end Grib.Props
