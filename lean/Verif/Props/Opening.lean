import Verif.Lemmas.ReaderExact
import Verif.Props.File

/-! # C59: exactly which data open, and exactly which make opening panic -/

namespace Grib.Props

open Grib.Model Grib.Spec

theorem read_result (r : Rdr) :
    (∀ g, Grib2.read r = .ok g → g.sections.map .ok = (itemsR r).1 ∧ Accepted g.sections) ∧
    (∀ sects, (itemsR r).1 = sects.map .ok → Accepted sects → ∃ g, Grib2.read r = .ok g ∧ g.sections = sects) ∧
    (Grib2.read r = .panic ↔ collectResult (pItems (itemsR r).1) = .panic) := by
  have hm := collectResult_map (Submsg.map Prod.fst) (pItems (itemsR r).1)
  rw [← (idxStreamItems_eq _).1] at hm
  rw [Grib2.read_eq]
  refine ⟨?_, ?_, ?_⟩
  · intro g h
    cases hc : collectResult (idxStreamItems (itemsR r).1).1 with
    | ok subs =>
      rw [hc] at h
      simp only [Outcome.ok.injEq] at h
      have e := (C16_recorded (itemsR r).1).2 ⟨subs, hc⟩
      subst h
      refine ⟨e.symm, (C11_by_index _).1 ⟨subs, ?_⟩⟩
      rw [← e]; exact hc
    | err e => rw [hc] at h; simp at h
    | panic => rw [hc] at h; simp at h
  · intro sects hs ha
    obtain ⟨subs, hsub⟩ := (C11_by_index sects).2 ha
    rw [← hs] at hsub
    rw [hsub]
    refine ⟨_, rfl, ?_⟩
    have e := (C16_recorded (itemsR r).1).2 ⟨subs, hsub⟩
    rw [hs] at e ⊢
    exact ((List.map_inj_right (by intro x y; simp)).1 e).symm
  · cases hc : collectResult (pItems (itemsR r).1) with
    | ok subs => rw [hc] at hm; rw [hm]; simp [mapOut]
    | err e => rw [hc] at hm; rw [hm]; simp [mapOut]
    | panic => rw [hc] at hm; rw [hm]; simp [mapOut]

/-- A walk whose last section closes a message ends between messages. -/
theorem walk_closed {data : List UInt8} {p p' t' : Nat} {sects : List SectionInfo} (hw : Walk data p p sects p' t')
    (hf : ∀ s ∈ sects, Faithful data s) (ha : Accepted sects) : p' = t' := by
  rcases List.eq_nil_or_concat sects with rfl | ⟨init, s, rfl⟩
  · cases hw; rfl
  · rw [List.concat_eq_append] at *
    have h8 := accepted_last ha s (by simp)
    obtain ⟨p1, t1, -, w2⟩ := Walk.append_inv hw
    have hs := ((hf s (by simp)).sect8 h8).1
    cases w2 with
    | message h1 _ _ _ => omega
    | sect h1 h2 h3 h4 h5 h6 =>
      cases h6
      have := h5.1 h8
      omega

/-- C59: data open, with the sections `sects`, exactly when walking through the file from the position of the reader gives
these sections, each being what the octets say, they are in an allowed order, all messages are complete, and no further
message start follows. -/
theorem C59_opens_iff (r : Rdr) (hb : Benign r.evs) (sects : List SectionInfo) :
    (∃ g, Grib2.read r = .ok g ∧ g.sections = sects) ↔
      Accepted sects ∧ (∀ s ∈ sects, Faithful r.data s ∧ Addressable r.data s) ∧
      ∃ p, Walk r.data r.pos r.pos sects p p ∧ ∀ q, p ≤ q → ¬ MagicAt r.data q := by
  have hblind := (collectR_blind (r.data.length + 2) 0 0 r hb).1
  have hitems : (itemsR r).1 = (itemsR ⟨r.data, r.pos, []⟩).1 := hblind
  obtain ⟨k1, k2, -⟩ := read_result r
  constructor
  · rintro ⟨g, hg, rfl⟩
    obtain ⟨e, ha⟩ := k1 g hg
    rw [hitems] at e
    obtain ⟨sects, tail, p', t', h1, h2, h3, h4⟩ := itemsR_cursor r.data r.pos
    rw [h1] at e
    have hnil : tail = [] := by
      cases tail with
      | nil => rfl
      | cons x xs =>
        exfalso
        have hx : x ∈ g.sections.map Outcome.ok := by rw [e]; simp
        obtain ⟨y, -, rfl⟩ := List.mem_map.1 hx
        rcases h4 with ⟨h, -⟩ | ⟨e, h⟩ | ⟨h, -⟩ <;> simp at h
    subst hnil
    rw [List.append_nil] at e
    have hs : g.sections = sects := (List.map_inj_right (by intro x y; simp)).1 e
    rw [hs] at ha ⊢
    rcases h4 with ⟨-, h4⟩ | ⟨e, h⟩ | ⟨h, -⟩
    · have hpt := walk_closed h2 (fun s hs => (h3 s hs).1) ha
      subst hpt
      refine ⟨ha, h3, p', h2, ?_⟩
      unfold EndsAt at h4
      rwa [if_pos rfl] at h4
    · simp at h
    · simp at h
  · rintro ⟨ha, hf, p, hw, hm⟩
    have := (itemsR_of_walk hw hf).1 (by unfold EndsAt; rw [if_pos rfl]; exact hm)
    rw [← hitems] at this
    exact k2 sects this ha

/-- C59: opening panics exactly when walking through the file, over sections that are what the octets say and that some
continuation would put in an allowed order, reaches one of the senseless lengths of `Crash`.  In all other cases opening
returns (with an error unless `C59_opens_iff` applies). -/
theorem C59_panics_iff (r : Rdr) (hb : Benign r.evs) :
    Grib2.read r = .panic ↔
      ∃ sects p t, Viable sects ∧ (∀ s ∈ sects, Faithful r.data s ∧ Addressable r.data s) ∧
        Walk r.data r.pos r.pos sects p t ∧ Crash r.data p t := by
  have hblind := (collectR_blind (r.data.length + 2) 0 0 r hb).1
  have hitems : (itemsR r).1 = (itemsR ⟨r.data, r.pos, []⟩).1 := hblind
  rw [(read_result r).2.2, hitems]
  constructor
  · intro h
    obtain ⟨sects, tail, p', t', h1, h2, h3, h4⟩ := itemsR_cursor r.data r.pos
    rw [h1] at h
    rcases h4 with ⟨rfl, h4⟩ | ⟨e, rfl⟩ | ⟨rfl, h4⟩
    · exact absurd (collectResult_mem.2 h) (pItems_noPanic (by simp))
    · refine absurd (collectResult_mem.2 h) (pItems_noPanic ?_)
      simp only [List.mem_append, List.mem_map, List.mem_singleton]
      rintro x (⟨a, -, rfl⟩ | rfl) <;> simp
    · refine ⟨sects, p', t', ?_, h3, h2, h4⟩
      apply Classical.byContradiction
      intro hv
      obtain ⟨e, k, he, -⟩ := pItems_not_viable (tail := [.panic]) (by simp [NoOk]) hv
      rw [he] at h
      simp at h
  · rintro ⟨sects, p, t, hv, hf, hw, hc⟩
    rw [(itemsR_of_walk hw hf).2 hc]
    exact (pItems_viable hv).2

/-- C59: the sections of opened data are determined by the octets (the walk has no choice). -/
theorem C59_unique (data : List UInt8) (pos : Nat) (a b : List SectionInfo) (p q : Nat)
    (ha : ∀ s ∈ a, Faithful data s ∧ Addressable data s) (hb : ∀ s ∈ b, Faithful data s ∧ Addressable data s)
    (wa : Walk data pos pos a p p) (wb : Walk data pos pos b q q)
    (ea : ∀ x, p ≤ x → ¬ MagicAt data x) (eb : ∀ x, q ≤ x → ¬ MagicAt data x) : a = b := by
  have h1 := (itemsR_of_walk wa ha).1 (by unfold EndsAt; rw [if_pos rfl]; exact ea)
  have h2 := (itemsR_of_walk wb hb).1 (by unfold EndsAt; rw [if_pos rfl]; exact eb)
  rw [h1] at h2
  exact (List.map_inj_right (by intro x y; simp)).1 h2

/-- The sample file opens, so by `C59_opens_iff` it satisfies the right-hand side; the four files of C06 satisfy that of
`C59_panics_iff`. -/
example : ∃ sects, Accepted sects ∧ sects ≠ [] ∧ ∃ p, Walk sampleFile 0 0 sects p p := by
  obtain ⟨g, h1, h2⟩ := sampleFile_opens
  obtain ⟨h3, -, p, h4, -⟩ := (C59_opens_iff ⟨sampleFile, 0, []⟩ Benign.nil g.sections).1 ⟨g, h1, rfl⟩
  refine ⟨g.sections, h3, ?_, p, h4⟩
  intro he
  have := (read_result ⟨sampleFile, 0, []⟩).1 g h1
  rw [he, ← (collect_new _).1] at this
  have hs := sampleFile_sections
  rw [← this.1] at hs
  simp at hs

example : ∃ sects p t, Viable sects ∧ Walk [0x47, 0x52, 0x49, 0x42, 0, 0, 0, 2, 0, 0, 0, 0, 0, 0, 0, 0] 0 0 sects p t ∧
    Crash [0x47, 0x52, 0x49, 0x42, 0, 0, 0, 2, 0, 0, 0, 0, 0, 0, 0, 0] p t := by
  obtain ⟨sects, p, t, h1, -, h2, h3⟩ := (C59_panics_iff _ Benign.nil).1 C06_total_length_fails
  exact ⟨sects, p, t, h1, h2, h3⟩

end Grib.Props
