import Verif.Lemmas.Narrow
import Verif.Props.AnyReader
import Verif.Props.ReleaseOpen

/-! # C88: opening files on 32-bit platforms

`usize` has 32 bits in WebAssembly (`demo/`); `Model/Narrow.lean` is opening there.  `Grib2.read` is opening with 64 bits,
`N32.read` with 32 bits. -/

namespace Grib.Props

open Grib.Model Grib.Spec

theorem start_new {r : Rdr} (hp : r.pos < 2 ^ 32) : N32.Start (SectStream.new r) := fun _ => ⟨rfl, hp⟩

/-- What opening makes of the items of the section stream, with 64 and with 32 bits. -/
theorem read_collect (r : Rdr) :
    Grib2.read r = Rel.finish (((SectStream.new r).collectN (r.data.length + 2)).1,
      ((SectStream.new r).collectN (r.data.length + 2)).2.reader) ∧
    ∀ fuel, N32.readN fuel r = Rel.finish ((N32.collectN fuel (SectStream.new r)).1,
      (N32.collectN fuel (SectStream.new r)).2.reader) := ⟨rfl, fun _ => rfl⟩

/-- C88: every file of less than `2^31` octets that is opened with 64 bits is opened with 32 bits, with the same sections and
the same submessages, whatever the reader does. -/
theorem C88_opens (r : Rdr) (hl : r.data.length < 2 ^ 31) (hp : r.pos < 2 ^ 32) (g : Grib2) (h : Grib2.read r = .ok g) :
    N32.read r = .ok g := by
  obtain ⟨ha, hf, p, hw⟩ := C70_opened r g h
  have hin := N32.walk_within hw (fun s hs => (hf s hs).1) (accepted_last ha)
  have h' := h
  rw [(read_collect r).1] at h'
  obtain ⟨h1, -⟩ := rel_finish_ok h'
  have hc := N32.collectN_of_model (r.data.length + 2) (s := SectStream.new r) (sects := g.sections)
    (s' := ((SectStream.new r).collectN (r.data.length + 2)).2) (start_new hp) hl ?_ (Prod.ext h1 rfl)
  · show N32.readN _ r = _
    rw [(read_collect r).2, hc, ← h, (read_collect r).1]
    simp only at h1
    rw [h1]
  · intro start ind hm
    have hb : ind = indicatorAt r.data start := by
      have := (hf _ hm).1.body
      simp only [BodyAt, Option.some.injEq, SectionBody.section0.injEq] at this
      exact this
    have := hin.2.1 _ hm rfl
    have e : ind.totalLength = number r.data (start + 8) 8 := by rw [hb]; rfl
    simp only at this
    omega

/-- C88: if no total length is `2^32` or more, opening with 32 bits has the result of opening with 64 bits, or panics. -/
theorem C88_follows (r : Rdr) (hp : r.pos < 2 ^ 32)
    (ht : ∀ q, MagicAt r.data q → octet r.data (q + 7) = 2 → number r.data (q + 8) 8 < 2 ^ 32) :
    N32.read r = .panic ∨ N32.read r = Grib2.read r := by
  have e1 : N32.read r = N32.readN (r.data.length + 2) r := rfl
  rw [e1, (read_collect r).1, (read_collect r).2]
  rcases N32.collectN_fol (r.data.length + 2) (s := SectStream.new r) (start_new hp) (fun q h1 h2 => ht q h2 h1) with
    h | ⟨pre, ext, t, h1, h2, h3⟩
  · right; rw [h]
  · by_cases hv : Viable pre
    · left
      rw [(Rel.finish_parse _).2, h1]
      exact (pItems_viable hv).2
    · right
      rw [h1, h2]
      exact Rel.finish_prefix hv (by simp [NoOk]) (Rel.noOk_tail h3)

/-- C88: so nothing else is opened with 32 bits. -/
theorem C88_only (r : Rdr) (hp : r.pos < 2 ^ 32)
    (ht : ∀ q, MagicAt r.data q → octet r.data (q + 7) = 2 → number r.data (q + 8) 8 < 2 ^ 32)
    (g : Grib2) (h : N32.read r = .ok g) : Grib2.read r = .ok g := by
  rcases C88_follows r hp ht with h' | h'
  · rw [h] at h'; cases h'
  · rw [← h']; exact h

/-- C88: the payload of every section of a file that has been opened is read as with 64 bits, by any reader. -/
theorem C88_payload (r : Rdr) (hl : r.data.length < 2 ^ 31) (g : Grib2) (h : Grib2.read r = .ok g) (s : SectionInfo)
    (hs : s ∈ g.sections) (r' : Rdr) : N32.readSectPayloadAsSlice s r' = readSectPayloadAsSlice s r' := by
  obtain ⟨ha, hf, p, hw⟩ := C70_opened r g h
  have hin := (N32.walk_within hw (fun s hs => (hf s hs).1) (accepted_last ha)).2.2 s hs
  unfold N32.readSectPayloadAsSlice readSectPayloadAsSlice
  rw [if_neg (by omega), N32.allocReadExact_small (by omega)]

/-- C88: opening ends: more calls of the section stream than octets and two more make no difference. -/
theorem C88_ends (r : Rdr) (fuel : Nat) (hf : r.data.length + 2 ≤ fuel) : N32.readN fuel r = N32.read r := by
  obtain ⟨k, rfl⟩ : ∃ k, fuel = r.data.length + 2 + k := ⟨fuel - (r.data.length + 2), by omega⟩
  show _ = N32.readN _ r
  rw [(read_collect r).2, (read_collect r).2, N32.collectN_fuel (r.data.length + 2) k (by
    show r.data.length - r.pos + 2 ≤ _; omega)]

/-- A message of 86 octets that states a total length of `2^32 + 86`. -/
def wrappedFile : List UInt8 :=
  [0x47, 0x52, 0x49, 0x42, 0, 0, 0, 2, 0, 0, 0, 1, 0, 0, 0, 86] ++ sampleFile.drop 19

/-- C88: the condition on total lengths in `C88_follows` and `C88_only` is needed: only the lowest 32 bits of the total length
count, and a file is opened that is refused with 64 bits. -/
theorem C88_wrapped :
    Grib2.read ⟨wrappedFile, 0, []⟩ = .err (.readError .unexpectedEof) ∧
    ∃ g, N32.read ⟨wrappedFile, 0, []⟩ = .ok g ∧ g.submessages.length = 1 :=
  ⟨by decide +kernel, Outcome.exists_of_ok? (by decide +kernel)⟩

/-- C88: the panics of `C88_follows` occur: a section 1 announced to have more than `2^31` octets, and a message that would end
at `2^32`; both are errors with 64 bits. -/
theorem C88_panics :
    (N32.read ⟨[0x47, 0x52, 0x49, 0x42, 0, 0, 0, 2, 0, 0, 0, 0, 0xff, 0, 0, 0] ++ [0x80, 0, 0, 5, 1], 0, []⟩ = .panic ∧
      Grib2.read ⟨[0x47, 0x52, 0x49, 0x42, 0, 0, 0, 2, 0, 0, 0, 0, 0xff, 0, 0, 0] ++ [0x80, 0, 0, 5, 1], 0, []⟩ =
        .err (.readError .unexpectedEof)) ∧
    (N32.read ⟨[0] ++ [0x47, 0x52, 0x49, 0x42, 0, 0, 0, 2, 0, 0, 0, 0, 0xff, 0xff, 0xff, 0xff], 0, []⟩ = .panic ∧
      Grib2.read ⟨[0] ++ [0x47, 0x52, 0x49, 0x42, 0, 0, 0, 2, 0, 0, 0, 0, 0xff, 0xff, 0xff, 0xff], 0, []⟩ =
        .err (.unexpectedEndOfData 0)) := by
  decide +kernel

/-- The hypotheses of `C88_opens`: the sample file. -/
example : ∃ g, N32.read ⟨sampleFile, 0, []⟩ = .ok g ∧ g.submessages.length = 1 := by
  obtain ⟨g, h1, h2⟩ := sampleFile_opens
  exact ⟨g, C88_opens _ (by decide) (by decide) g h1, h2⟩

/-- The hypotheses of `C88_follows`: the sample file. -/
example : ∀ q, MagicAt sampleFile q → octet sampleFile (q + 7) = 2 → number sampleFile (q + 8) 8 < 2 ^ 32 := by
  intro q hq _
  have hq2 : q < 89 := by
    have := hq.2
    have e : sampleFile.length = 89 := by decide
    omega
  have key : ∀ q < 89, Octets sampleFile q [0x47, 0x52, 0x49, 0x42] → number sampleFile (q + 8) 8 < 2 ^ 32 := by
    decide +kernel
  exact key q hq2 hq.1

end Grib.Props
