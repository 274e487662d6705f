import Verif.Props.Listing
import Verif.Spec.Product

/-! # C38-C41: header fields, product attributes -/

namespace Grib.Props

open Grib.Model Grib.Spec

variable {ε : Type}

/-! ## C38 -/

/-- C38, section 1: every accessor returns the number in its octets (WMO octet numbers). -/
theorem C38_identification (data : List UInt8) (s : SectionInfo) (h : Faithful data s) (hn : s.num = 1) :
    ∃ i : Identification, s.body = some (.section1 i.payload) ∧
      (i.centreId : Outcome ε Nat) = .ok (field data s.offset 6 7) ∧
      (i.subcentreId : Outcome ε Nat) = .ok (field data s.offset 8 9) ∧
      (i.masterTableVersion : Outcome ε Nat) = .ok (field data s.offset 10 10) ∧
      (i.localTableVersion : Outcome ε Nat) = .ok (field data s.offset 11 11) ∧
      (i.refTimeSignificance : Outcome ε Nat) = .ok (field data s.offset 12 12) ∧
      (i.refTimeFields : Outcome ε (List Nat)) = .ok [field data s.offset 13 14, field data s.offset 15 15,
        field data s.offset 16 16, field data s.offset 17 17, field data s.offset 18 18, field data s.offset 19 19] ∧
      (i.prodStatus : Outcome ε Nat) = .ok (field data s.offset 20 20) ∧
      (i.dataType : Outcome ε Nat) = .ok (field data s.offset 21 21) := by
  obtain ⟨h1, h2, h3⟩ := faithful_payload h (by omega) (by omega)
  have hb := h.body
  rw [hn] at hb h3
  simp only [BodyAt, minPayload] at hb h3
  refine ⟨⟨payloadAt data s.offset s.size⟩, hb, ?_⟩
  simp only [Identification.centreId, Identification.subcentreId, Identification.masterTableVersion,
    Identification.localTableVersion, Identification.refTimeSignificance, Identification.refTimeFields,
    Identification.prodStatus, Identification.dataType, rdIdx_payload h1 h2,
    rdAs_payload (len := 2) h1 h2 (by omega)]
  simp only [if_pos (show 0 + 2 + 5 ≤ s.size by omega), if_pos (show 2 + 2 + 5 ≤ s.size by omega),
    if_pos (show 7 + 2 + 5 ≤ s.size by omega), if_pos (show 4 + 6 ≤ s.size by omega), if_pos (show 5 + 6 ≤ s.size by omega),
    if_pos (show 6 + 6 ≤ s.size by omega), if_pos (show 9 + 6 ≤ s.size by omega), if_pos (show 10 + 6 ≤ s.size by omega),
    if_pos (show 11 + 6 ≤ s.size by omega), if_pos (show 12 + 6 ≤ s.size by omega), if_pos (show 13 + 6 ≤ s.size by omega),
    if_pos (show 14 + 6 ≤ s.size by omega), if_pos (show 15 + 6 ≤ s.size by omega), Outcome.bind_ok]
  simp

/-- C38, section 3. -/
theorem C38_grid_definition (data : List UInt8) (s : SectionInfo) (h : Faithful data s) (hn : s.num = 3) :
    ∃ i : GridDefinition, s.body = some (.section3 i.payload) ∧
      (i.numPoints : Outcome ε Nat) = .ok (field data s.offset 7 10) ∧
      (i.gridTmplNum : Outcome ε Nat) = .ok (field data s.offset 13 14) := by
  obtain ⟨h1, h2, h3⟩ := faithful_payload h (by omega) (by omega)
  have hb := h.body
  rw [hn] at hb h3
  simp only [BodyAt, minPayload] at hb h3
  refine ⟨⟨payloadAt data s.offset s.size⟩, hb, ?_, ?_⟩
  · rw [GridDefinition.numPoints, rdAs_payload h1 h2 (by omega), if_pos (by omega)]
  · rw [GridDefinition.gridTmplNum, rdAs_payload h1 h2 (by omega), if_pos (by omega)]

/-- C38, section 4. -/
theorem C38_product_definition (data : List UInt8) (s : SectionInfo) (h : Faithful data s) (hn : s.num = 4) :
    ∃ i : ProdDefinition, s.body = some (.section4 i.payload) ∧
      (i.numCoordinates : Outcome ε Nat) = .ok (field data s.offset 6 7) ∧
      (i.prodTmplNum : Outcome ε Nat) = .ok (field data s.offset 8 9) := by
  obtain ⟨h1, h2, h3⟩ := faithful_payload h (by omega) (by omega)
  have hb := h.body
  rw [hn] at hb h3
  simp only [BodyAt, minPayload] at hb h3
  refine ⟨⟨payloadAt data s.offset s.size⟩, hb, ?_, ?_⟩
  · rw [ProdDefinition.numCoordinates, rdAs_payload h1 h2 (by omega), if_pos (by omega)]
  · rw [ProdDefinition.prodTmplNum, rdAs_payload h1 h2 (by omega), if_pos (by omega)]

/-- C38, section 5. -/
theorem C38_representation (data : List UInt8) (s : SectionInfo) (h : Faithful data s) (hn : s.num = 5) :
    ∃ i : ReprDefinition, s.body = some (.section5 i.payload) ∧
      (i.numPoints : Outcome ε Nat) = .ok (field data s.offset 6 9) ∧
      (i.reprTmplNum : Outcome ε Nat) = .ok (field data s.offset 10 11) := by
  obtain ⟨h1, h2, h3⟩ := faithful_payload h (by omega) (by omega)
  have hb := h.body
  rw [hn] at hb h3
  simp only [BodyAt, minPayload] at hb h3
  refine ⟨⟨payloadAt data s.offset s.size⟩, hb, ?_, ?_⟩
  · rw [ReprDefinition.numPoints, rdAs_payload h1 h2 (by omega), if_pos (by omega)]
  · rw [ReprDefinition.reprTmplNum, rdAs_payload h1 h2 (by omega), if_pos (by omega)]

/-- C38, section 0: discipline and total length are those of the octets, and the edition is 2. -/
theorem C38_indicator (data : List UInt8) (s : SectionInfo) (h : Faithful data s) (hn : s.num = 0) :
    s.body = some (.section0 ⟨field data s.offset 7 7, field data s.offset 9 16⟩) ∧ field data s.offset 8 8 = 2 := by
  have hb := h.body
  rw [hn] at hb
  simp only [BodyAt] at hb
  obtain ⟨-, -, h2⟩ := h.sect0 hn
  refine ⟨?_, ?_⟩
  · rw [hb]; simp [field, number, octet, List.range_succ]
  · rw [← h2]; simp [field, number, octet, List.range_succ]

/-- C38: reading the body of a section 1, 3, 4 or 5 that is shorter than its fixed part gives an error, whatever the
reader does. -/
theorem C38_short_body_is_error (size num : Nat) (r : Rdr) (hn : num = 1 ∨ num = 3 ∨ num = 4 ∨ num = 5) (h5 : 5 ≤ size)
    (hs : size - 5 < minPayload num) : ∃ e r', readSectPayload size num r = (.err e, r') := by
  have key : ∀ (min : Nat) (f : List UInt8 → SectionBody), size - 5 < min →
      ∃ e r', (do let p ← rdReadExact (size - 5); let p ← RM.lift (checkPayload min p); pure (f p) : RM SectionBody) r =
        (.err e, r') := by
    intro min f hmin
    rcases hr : rdReadExact (size - 5) r with ⟨o, r'⟩
    cases o with
    | err e => exact ⟨e, r', by rw [RM.bind_apply, hr]⟩
    | panic => exact absurd hr (rdReadExact_noPanic _ _ _)
    | ok p =>
      have hl := (rdReadExact_ok hr).2.2.2.1
      refine ⟨.readError (.sectionSizeTooSmall p.length), r', ?_⟩
      rw [RM.bind_apply, hr]
      simp only
      rw [RM.bind_apply]
      have : p.length < min := by omega
      simp [RM.lift, checkPayload, this]
  unfold readSectPayload
  rw [if_neg (by omega)]
  rcases hn with rfl | rfl | rfl | rfl
  · exact key 16 _ (by simpa [minPayload] using hs)
  · exact key 9 _ (by simpa [minPayload] using hs)
  · exact key 4 _ (by simpa [minPayload] using hs)
  · exact key 6 _ (by simpa [minPayload] using hs)


-- the sample file has faithful sections of each kind, section 1 with centre 7 and year 2020 in it
example : ∃ data, ∀ n, n = 0 ∨ n = 1 ∨ n = 3 ∨ n = 4 ∨ n = 5 → ∃ s, Faithful data s ∧ s.num = n ∧
    (n = 1 → field data s.offset 6 7 = 7 ∧ field data s.offset 13 14 = 2020) := by
  refine ⟨messagesBytes sampleMessagesFile, ?_⟩
  obtain ⟨g, h1, h2⟩ := Outcome.exists_of_ok? (x := Grib2.read ⟨messagesBytes sampleMessagesFile, 0, []⟩)
    (f := fun (g : Grib2) => (g.sections.take 5).map fun s => (s.num, s.offset))
    (b := [(0, 3), (1, 19), (3, 40), (4, 54), (5, 63)]) (by decide +kernel)
  have hf := C04_opened _ _ h1
  have : ∀ p ∈ [(0, 3), (1, 19), (3, 40), (4, 54), (5, 63)], ∃ s ∈ g.sections, s.num = p.1 ∧ s.offset = p.2 := by
    intro p hp
    rw [← h2] at hp
    obtain ⟨s, hs, rfl⟩ := List.mem_map.1 hp
    exact ⟨s, List.mem_of_mem_take hs, rfl, rfl⟩
  have n1 : field (messagesBytes sampleMessagesFile) 19 6 7 = 7 ∧
    field (messagesBytes sampleMessagesFile) 19 13 14 = 2020 := by decide +kernel
  rintro n (rfl | rfl | rfl | rfl | rfl)
  · obtain ⟨s, hs, h3, h4⟩ := this (0, 3) (by simp)
    exact ⟨s, hf s hs, h3, by simp⟩
  · obtain ⟨s, hs, h3, h4⟩ := this (1, 19) (by simp)
    exact ⟨s, hf s hs, h3, fun _ => by rw [h4]; exact n1⟩
  · obtain ⟨s, hs, h3, h4⟩ := this (3, 40) (by simp)
    exact ⟨s, hf s hs, h3, by simp⟩
  · obtain ⟨s, hs, h3, h4⟩ := this (4, 54) (by simp)
    exact ⟨s, hf s hs, h3, by simp⟩
  · obtain ⟨s, hs, h3, h4⟩ := this (5, 63) (by simp)
    exact ⟨s, hf s hs, h3, by simp⟩

/-! ## C39 -/

theorem prodTemplates_eq : ProdTemplates = supportedProdTemplates := by decide

theorem contains_iff (t : Nat) : supportedProdTemplates.contains t = true ↔ t ∈ ProdTemplates := by
  rw [prodTemplates_eq, List.contains_iff_mem]

/-- A section 4 as it is in a file: its body, its template number. -/
structure Sect4 (data : List UInt8) (s : SectionInfo) (i : ProdDefinition) : Prop where
  faithful : Faithful data s
  num : s.num = 4
  body : s.body = some (.section4 i.payload)

theorem Sect4.facts {data : List UInt8} {s : SectionInfo} {i : ProdDefinition} (h : Sect4 data s i) :
    i.payload = payloadAt data s.offset s.size ∧ s.offset + s.size ≤ data.length ∧ 9 ≤ s.size := by
  obtain ⟨h1, h2, h3⟩ := faithful_payload h.faithful (by rw [h.num]; omega) (by rw [h.num]; omega)
  have hb := h.faithful.body
  rw [h.num] at hb h3
  simp only [BodyAt, minPayload] at hb h3
  rw [h.body] at hb
  simp only [Option.some.injEq, SectionBody.section4.injEq] at hb
  exact ⟨hb, h1, by omega⟩

theorem Sect4.tmpl {data : List UInt8} {s : SectionInfo} {i : ProdDefinition} (h : Sect4 data s i) :
    (i.prodTmplNum : Outcome ε Nat) = .ok (field data s.offset 8 9) := by
  obtain ⟨h1, h2, h3⟩ := h.facts
  rw [ProdDefinition.prodTmplNum, h1, rdAs_payload h2 (by omega) (by omega), if_pos (by omega)]

theorem Sect4.supported {data : List UInt8} {s : SectionInfo} {i : ProdDefinition} (h : Sect4 data s i) :
    (i.templateSupported : Outcome ε Bool) = .ok (decide (field data s.offset 8 9 ∈ ProdTemplates)) := by
  rw [ProdDefinition.templateSupported, h.tmpl]
  simp only [Outcome.bind_ok, Outcome.ok.injEq]
  rw [Bool.eq_iff_iff, contains_iff, decide_eq_true_eq]

/-- The octet with WMO number `n` of a section, if the section is that long. -/
def octet? (data : List UInt8) (s : SectionInfo) (n : Nat) : Option Nat :=
  if n ≤ s.size then some (field data s.offset n n) else none

theorem Sect4.getOctet {data : List UInt8} {s : SectionInfo} {i : ProdDefinition} (h : Sect4 data s i) (k : Nat) :
    i.getOctet k = octet? data s (k + 10) := by
  obtain ⟨h1, h2, h3⟩ := h.facts
  rw [ProdDefinition.getOctet, h1, getElem_payload h2 (by omega), show 4 + k + 6 = k + 10 by omega]
  rfl

/-- C39: parameter category and number are octets 10 and 11 for the supported templates, absent otherwise (or when the
section is too short); they never panic. -/
theorem C39_parameter (data : List UInt8) (s : SectionInfo) (i : ProdDefinition) (h : Sect4 data s i) :
    (i.parameterCategory : Outcome ε (Option Nat)) =
      .ok (if field data s.offset 8 9 ∈ ProdTemplates then octet? data s 10 else none) ∧
    (i.parameterNumber : Outcome ε (Option Nat)) =
      .ok (if field data s.offset 8 9 ∈ ProdTemplates then octet? data s 11 else none) := by
  simp only [ProdDefinition.parameterCategory, ProdDefinition.parameterNumber, h.supported, Outcome.bind_ok, h.getOctet]
  by_cases hc : field data s.offset 8 9 ∈ ProdTemplates <;> simp [hc]

theorem process_arms : ∀ t ∈ ProdTemplates, t ∉ [47, 83, 254] →
    (ProdDefinition.arm ProdDefinition.generatingProcessArms t).map (· + 10) = processOctet t := by decide +kernel

theorem time_arms : ∀ t ∈ ProdTemplates,
    (ProdDefinition.arm ProdDefinition.forecastTimeArms t).map (· + 10) = timeOctet t := by decide +kernel

theorem surface_arms : ∀ t ∈ ProdTemplates,
    (ProdDefinition.arm ProdDefinition.fixedSurfacesArms t).map (· + 10) = surfaceOctet t := by decide +kernel

/-- C39: for every template other than 47, 83 and 254, the generating process is the octet the template assigns, or absent;
it never panics. -/
theorem C39_generating_process_partial (data : List UInt8) (s : SectionInfo) (i : ProdDefinition) (h : Sect4 data s i)
    (ht : field data s.offset 8 9 ∉ [47, 83, 254]) :
    (i.generatingProcess : Outcome ε (Option Nat)) =
      .ok (if field data s.offset 8 9 ∈ ProdTemplates then (processOctet (field data s.offset 8 9)).bind (octet? data s)
        else none) := by
  simp only [ProdDefinition.generatingProcess, h.supported, h.tmpl, Outcome.bind_ok]
  by_cases hc : field data s.offset 8 9 ∈ ProdTemplates
  · simp only [hc, decide_true, if_true, Outcome.ok.injEq]
    rw [← process_arms _ hc ht]
    cases ProdDefinition.arm ProdDefinition.generatingProcessArms (field data s.offset 8 9) with
    | none => rfl
    | some k => simp [h.getOctet]
  · simp [hc]

/-- C39 fails for templates 47 and 83 (and 254, which has no generating process): octet 12 is returned although these
templates have the aerosol type there and the generating process in octet 25 (47), 26 (83). -/
theorem C39_generating_process_fails (data : List UInt8) (s : SectionInfo) (i : ProdDefinition) (h : Sect4 data s i)
    (ht : field data s.offset 8 9 ∈ [47, 83, 254]) :
    (i.generatingProcess : Outcome ε (Option Nat)) = .ok (octet? data s 12) ∧
    processOctet (field data s.offset 8 9) ≠ some 12 := by
  simp only [ProdDefinition.generatingProcess, h.supported, h.tmpl, Outcome.bind_ok]
  have hc : ∀ t ∈ [47, 83, 254], t ∈ ProdTemplates ∧
      ProdDefinition.arm ProdDefinition.generatingProcessArms t = some 2 ∧ processOctet t ≠ some 12 := by decide +kernel
  obtain ⟨h1, h2, h3⟩ := hc _ ht
  refine ⟨?_, h3⟩
  simp [h1, h2, h.getOctet]

/-- C39: forecast time.  For every supported template but 44, when the section is long enough: unit and value are the
octets the template assigns, or absent when it assigns none. -/
theorem C39_forecast_time_partial (data : List UInt8) (s : SectionInfo) (i : ProdDefinition) (h : Sect4 data s i)
    (ht : field data s.offset 8 9 ≠ 44)
    (hl : ∀ o, field data s.offset 8 9 ∈ ProdTemplates → timeOctet (field data s.offset 8 9) = some o →
      o + timeLength (field data s.offset 8 9) ≤ s.size) :
    (i.forecastTime : Outcome ε (Option (Nat × Nat))) =
      .ok (if field data s.offset 8 9 ∈ ProdTemplates then
        (timeOctet (field data s.offset 8 9)).map fun o =>
          (field data s.offset o o, field data s.offset (o + 1) (o + timeLength (field data s.offset 8 9)))
        else none) := by
  obtain ⟨h1, h2, h3⟩ := h.facts
  simp only [ProdDefinition.forecastTime, h.supported, h.tmpl, Outcome.bind_ok]
  have e4 : timeLength (field data s.offset 8 9) = 4 := by simp [timeLength, ht]
  rw [e4] at hl ⊢
  by_cases hc : field data s.offset 8 9 ∈ ProdTemplates
  · simp only [hc, decide_true, if_true]
    have ha := time_arms _ hc
    have hl := fun o => hl o hc
    rw [← ha] at hl ⊢
    cases hk : ProdDefinition.arm ProdDefinition.forecastTimeArms (field data s.offset 8 9) with
    | none => rfl
    | some k =>
      rw [hk] at hl
      have := hl (k + 10) rfl
      simp only [Option.map_some]
      rw [h1, rdAs_payload h2 (by omega) (by omega), if_pos (by omega)]
      simp only [Outcome.bind_ok, h.getOctet, octet?, if_pos (show k + 10 ≤ s.size by omega), Option.map_some]
      rw [show 4 + k + 1 + 6 = k + 10 + 1 by omega, show 4 + k + 1 + 5 + 4 = k + 10 + 4 by omega]
  · simp [hc]

/-- C39 fails: the forecast time accessor panics whenever the section ends before the template's forecast time. -/
theorem C39_forecast_time_fails (data : List UInt8) (s : SectionInfo) (i : ProdDefinition) (h : Sect4 data s i) (o : Nat)
    (hc : field data s.offset 8 9 ∈ ProdTemplates) (ho : timeOctet (field data s.offset 8 9) = some o)
    (hs : s.size < o + 4) : (i.forecastTime : Outcome ε (Option (Nat × Nat))) = .panic := by
  obtain ⟨h1, h2, h3⟩ := h.facts
  simp only [ProdDefinition.forecastTime, h.supported, h.tmpl, Outcome.bind_ok, hc, decide_true, if_true]
  have ha := time_arms _ hc
  rw [ho] at ha
  cases hk : ProdDefinition.arm ProdDefinition.forecastTimeArms (field data s.offset 8 9) with
  | none => rw [hk] at ha; simp at ha
  | some k =>
    rw [hk] at ha
    simp only [Option.map_some, Option.some.injEq] at ha
    simp only
    rw [h1, rdAs_payload h2 (by omega) (by omega), if_neg (by omega)]
    rfl

/-- C39 fails for template 44: four octets 32-35 are read as forecast time, although the first fixed surface (which the
crate reads too) starts at octet 34: the fields overlap. -/
theorem C39_template_44_fails (data : List UInt8) (s : SectionInfo) (i : ProdDefinition) (h : Sect4 data s i)
    (ht : field data s.offset 8 9 = 44) (hs : 45 ≤ s.size) :
    (i.forecastTime : Outcome ε (Option (Nat × Nat))) =
      .ok (some (field data s.offset 31 31, field data s.offset 32 35)) ∧
    (∃ a b, (i.fixedSurfaces : Outcome ε (Option (FixedSurface × FixedSurface))) = .ok (some (a, b)) ∧
      a.surfaceType = field data s.offset 34 34) := by
  obtain ⟨h1, h2, h3⟩ := h.facts
  have e1 : (44 : Nat) ∈ ProdTemplates := by decide
  have e2 : ProdDefinition.arm ProdDefinition.forecastTimeArms 44 = some 21 := by decide
  have e3 : ProdDefinition.arm ProdDefinition.fixedSurfacesArms 44 = some 24 := by decide
  simp only [ProdDefinition.forecastTime, ProdDefinition.fixedSurfaces, ProdDefinition.readSurfaceFrom, h.supported,
    h.tmpl, Outcome.bind_ok, ht, e1, decide_true, if_true, e2, e3]
  rw [h1, rdAs_payload h2 (by omega) (by omega), rdAs_payload h2 (by omega) (by omega),
    rdAs_payload h2 (by omega) (by omega), if_pos (by omega), if_pos (by omega), if_pos (by omega)]
  simp only [Outcome.bind_ok, h.getOctet, octet?, if_pos (show 21 + 10 ≤ s.size by omega),
    if_pos (show 24 + 10 ≤ s.size by omega), if_pos (show 24 + 1 + 10 ≤ s.size by omega),
    if_pos (show 24 + 6 + 10 ≤ s.size by omega), if_pos (show 24 + 6 + 1 + 10 ≤ s.size by omega)]
  refine ⟨rfl, _, _, rfl, rfl⟩

/-- The fixed surface in octets `o` to `o + 5`. -/
def surfaceAt (data : List UInt8) (p o : Nat) : FixedSurface :=
  ⟨field data p o o, signedField data p (o + 1) (o + 1), signedField data p (o + 2) (o + 5)⟩

/-- C39: fixed surfaces.  For every supported template, when the section is long enough: the two surfaces are in the
twelve octets the template assigns, scale factor and scaled value being sign-and-magnitude numbers; or absent when the
template assigns none. -/
theorem C39_fixed_surfaces_partial (data : List UInt8) (s : SectionInfo) (i : ProdDefinition) (h : Sect4 data s i)
    (hl : ∀ o, field data s.offset 8 9 ∈ ProdTemplates → surfaceOctet (field data s.offset 8 9) = some o →
      o + 11 ≤ s.size) :
    (i.fixedSurfaces : Outcome ε (Option (FixedSurface × FixedSurface))) =
      .ok (if field data s.offset 8 9 ∈ ProdTemplates then
        (surfaceOctet (field data s.offset 8 9)).map fun o =>
          (surfaceAt data s.offset o, surfaceAt data s.offset (o + 6))
        else none) := by
  obtain ⟨h1, h2, h3⟩ := h.facts
  simp only [ProdDefinition.fixedSurfaces, ProdDefinition.readSurfaceFrom, h.supported, h.tmpl, Outcome.bind_ok]
  by_cases hc : field data s.offset 8 9 ∈ ProdTemplates
  · simp only [hc, decide_true, if_true]
    have ha := surface_arms _ hc
    have hl := fun o => hl o hc
    rw [← ha] at hl ⊢
    cases hk : ProdDefinition.arm ProdDefinition.fixedSurfacesArms (field data s.offset 8 9) with
    | none => rfl
    | some k =>
      rw [hk] at hl
      have := hl (k + 10) rfl
      simp only [Option.map_some]
      rw [h1, rdAs_payload h2 (by omega) (by omega), rdAs_payload h2 (by omega) (by omega), if_pos (by omega),
        if_pos (by omega)]
      simp only [Outcome.bind_ok, h.getOctet, octet?, if_pos (show k + 10 ≤ s.size by omega),
        if_pos (show k + 1 + 10 ≤ s.size by omega), if_pos (show k + 6 + 10 ≤ s.size by omega),
        if_pos (show k + 6 + 1 + 10 ≤ s.size by omega), Option.map_some, Option.bind_some]
      simp only [surfaceAt, Outcome.ok.injEq, Option.some.injEq, Prod.mk.injEq, FixedSurface.mk.injEq]
      rw [asGribInt_field (by omega) (by omega) (by omega) (by omega),
        asGribInt_field (by omega) (by omega) (by omega) (by omega),
        asGribInt_field (by omega) (by omega) (by omega) (by omega),
        asGribInt_field (by omega) (by omega) (by omega) (by omega)]
      refine ⟨⟨trivial, ?_, ?_⟩, trivial, ?_, ?_⟩ <;> congr 1 <;> omega
  · simp [hc]

/-- C39 fails: the fixed surface accessor panics whenever the section ends inside the template's surfaces. -/
theorem C39_fixed_surfaces_fails (data : List UInt8) (s : SectionInfo) (i : ProdDefinition) (h : Sect4 data s i) (o : Nat)
    (hc : field data s.offset 8 9 ∈ ProdTemplates) (ho : surfaceOctet (field data s.offset 8 9) = some o)
    (hs : s.size < o + 11) : (i.fixedSurfaces : Outcome ε (Option (FixedSurface × FixedSurface))) = .panic := by
  obtain ⟨h1, h2, h3⟩ := h.facts
  simp only [ProdDefinition.fixedSurfaces, ProdDefinition.readSurfaceFrom, h.supported, h.tmpl, Outcome.bind_ok, hc,
    decide_true, if_true]
  have ha := surface_arms _ hc
  rw [ho] at ha
  cases hk : ProdDefinition.arm ProdDefinition.fixedSurfacesArms (field data s.offset 8 9) with
  | none => rw [hk] at ha; simp at ha
  | some k =>
    rw [hk] at ha
    simp only [Option.map_some, Option.some.injEq] at ha
    simp only
    rw [h1, rdAs_payload h2 (by omega) (by omega), rdAs_payload h2 (by omega) (by omega)]
    rw [if_neg (show ¬ (4 + (k + 6) + 2 + 4 + 5 ≤ s.size) by omega)]
    split <;> rfl

/-- C39: apart from template 44, the octets of generating process, forecast time and fixed surfaces of a template are
disjoint and behind octet 11. -/
theorem C39_no_overlap (t : Nat) (h : t ∈ ProdTemplates) (h44 : t ≠ 44) (p o q : Nat) (hp : processOctet t = some p)
    (ho : timeOctet t = some o) (hq : surfaceOctet t = some q) :
    11 < p ∧ p < o ∧ p < q ∧ (o + timeLength t < q ∨ q + 11 < o) := by
  have : ∀ t ∈ ProdTemplates, t ≠ 44 →
      match processOctet t, timeOctet t, surfaceOctet t with
      | some p, some o, some q => decide (11 < p ∧ p < o ∧ p < q ∧ (o + timeLength t < q ∨ q + 11 < o)) = true
      | _, _, _ => True := by
    intro t ht h44
    have : ∀ t ∈ ProdTemplates, t ≠ 44 → (match processOctet t, timeOctet t, surfaceOctet t with
      | some p, some o, some q => decide (11 < p ∧ p < o ∧ p < q ∧ (o + timeLength t < q ∨ q + 11 < o))
      | _, _, _ => true) = true := by decide +kernel
    have := this t ht h44
    split <;> simp_all
  have := this t h h44
  rw [hp, ho, hq] at this
  simpa using this

/-- A section 4 with template 0 (all fields present) standing alone in an octet string. -/
def sampleSect4 (t : UInt8) (tail : List UInt8) : List UInt8 := [0, 0, 0, UInt8.ofNat (9 + tail.length), 4, 0, 0, 0, t] ++ tail

theorem sampleSect4_ok (t : UInt8) (tail : List UInt8) (hl : tail.length < 200) :
    Sect4 (sampleSect4 t tail) ⟨4, 0, 9 + tail.length, some (.section4 ([0, 0, 0, t] ++ tail))⟩ ⟨[0, 0, 0, t] ++ tail⟩ where
  num := rfl
  body := rfl
  faithful := by
    have hlen : (sampleSect4 t tail).length = 9 + tail.length := by simp [sampleSect4]; omega
    refine ⟨?_, by simp, by simp, by simp, fun _ _ => ⟨by simp only; omega, ?_, rfl, by simp only; omega⟩,
      fun _ => ⟨by simp only; omega, fun _ => by simp [minPayload]; omega⟩⟩
    · simp only [BodyAt, sampleSect4, Option.some.injEq, SectionBody.section4.injEq]
      rw [show 0 + 5 = 5 from rfl]
      simp only [List.cons_append, List.nil_append, List.drop_succ_cons, List.drop_zero]
      rw [List.take_of_length_le (by simp; omega)]
    · simp only [number, octet, sampleSect4, List.range_succ]
      simp
      omega

-- template 0: forecast 6 hours, surfaces of type 100 with value 5 * 10^1 and type 255 all missing
example : ((⟨[0, 0, 0, 0] ++ [3, 5, 2, 0, 0, 0, 0, 0, 1, 0, 0, 0, 6, 100, 129, 0, 0, 0, 5, 255, 255, 255, 255, 255, 255]⟩ :
    ProdDefinition).forecastTime : Outcome Empty _) = .ok (some (1, 6)) ∧
    ((⟨[0, 0, 0, 0] ++ [3, 5, 2, 0, 0, 0, 0, 0, 1, 0, 0, 0, 6, 100, 129, 0, 0, 0, 5, 255, 255, 255, 255, 255, 255]⟩ :
    ProdDefinition).fixedSurfaces : Outcome Empty _) = .ok (some (⟨100, -1, 5⟩, ⟨255, -127, -2147483647⟩)) := by
  decide +kernel

-- the hypotheses of the failing cases are met: a template 0 section that ends after the parameter number panics,
-- template 47 with 25 octets
example : ((⟨[0, 0, 0, 0] ++ [3, 5]⟩ : ProdDefinition).forecastTime : Outcome Empty _) = .panic ∧
    Sect4 (sampleSect4 0 [3, 5]) ⟨4, 0, 11, some (.section4 ([0, 0, 0, 0] ++ [3, 5]))⟩ ⟨[0, 0, 0, 0] ++ [3, 5]⟩ :=
  ⟨by decide +kernel, sampleSect4_ok 0 [3, 5] (by decide)⟩

/-! ## C40 -/

/-- C40: the combined code determines discipline, category and number. -/
theorem C40_code_injective (p q : Parameter) (hp : p.category < 256 ∧ p.num < 256) (hq : q.category < 256 ∧ q.num < 256) :
    p.asU32 = q.asU32 ↔ p.discipline = q.discipline ∧ p.category = q.category ∧ p.num = q.num := by
  simp only [Parameter.asU32]
  omega

/-- C40: the combined code of octets fits in 32 bits and is made of the octets (0, discipline, category, number). -/
theorem C40_code_octets (p : Parameter) (hd : p.discipline < 256) (hc : p.category < 256) (hn : p.num < 256) :
    p.asU32 = be [0, UInt8.ofNat p.discipline, UInt8.ofNat p.category, UInt8.ofNat p.num] ∧ p.asU32 < 2 ^ 32 := by
  simp only [Parameter.asU32, be, List.foldl_cons, List.foldl_nil, UInt8.toNat_ofNat']
  have : (0 : UInt8).toNat = 0 := rfl
  omega

/-- The parameters named by the NCEP codes of the crate: discipline 0, category 3, numbers 0, 1, 5. -/
def ncepParameter : NCEP → Nat × Nat × Nat
  | .pres => (0, 3, 0)
  | .prmsl => (0, 3, 1)
  | .hgt => (0, 3, 5)

/-- C40: a parameter is identical to an NCEP code iff discipline, category and number are those of the code; centre and
table versions play no role. -/
theorem C40_identical_iff (p : Parameter) (hc : p.category < 256) (hn : p.num < 256) (code : NCEP) :
    p.isIdenticalTo code = true ↔ (p.discipline, p.category, p.num) = ncepParameter code := by
  have key : NCEP.tryFrom p = some code ↔ p.asU32 = code.toNum := by
    unfold NCEP.tryFrom
    cases code <;> simp only [NCEP.toNum] <;> split <;> simp_all
  have h1 : p.isIdenticalTo code = true ↔ NCEP.tryFrom p = some code := by
    unfold Parameter.isIdenticalTo
    cases NCEP.tryFrom p <;> simp
  rw [h1, key]
  cases code <;> simp only [NCEP.toNum, ncepParameter, Parameter.asU32, Prod.mk.injEq] <;> omega

example : (⟨0, 34, 2, 1, 3, 5⟩ : Parameter).isIdenticalTo .hgt = true ∧
    (⟨0, 7, 9, 0, 3, 5⟩ : Parameter).isIdenticalTo .hgt = true ∧
    (⟨0, 34, 2, 1, 3, 1⟩ : Parameter).isIdenticalTo .hgt = false := by decide

/-! ## C41 -/

/-- C41: the scaled value (scale factor) counts as missing iff all bits of its stored octets are ones. -/
theorem C41_missing_iff (t : Nat) (f v : Nat) (hf : f < 2 ^ 8) (hv : v < 2 ^ 32) :
    ((⟨t, asGribInt 8 f, asGribInt 32 v⟩ : FixedSurface).valueIsNan = true ↔ v = 2 ^ 32 - 1) ∧
    ((⟨t, asGribInt 8 f, asGribInt 32 v⟩ : FixedSurface).scaleFactorIsNan = true ↔ f = 2 ^ 8 - 1) := by
  simp only [FixedSurface.valueIsNan, FixedSurface.scaleFactorIsNan, beq_iff_eq, asGribInt]
  constructor
  · split <;> omega
  · split <;> omega

/-- C41: with exact arithmetic, a surface value that is not missing is the number `q` with `q * 10^f = v` (for a
negative scale factor, `q = v * 10^(-f)`), and a missing one is not a number. -/
theorem C41_value (s : FixedSurface) :
    if s.valueIsNan then s.value FloatOps.exact = none
    else ∃ q : Rat, s.value FloatOps.exact = some q ∧
      (0 ≤ s.scaleFactor → q * 10 ^ s.scaleFactor.toNat = s.scaledValue) ∧
      (s.scaleFactor ≤ 0 → q = s.scaledValue * 10 ^ (-s.scaleFactor).toNat) := by
  obtain ⟨t, f, v⟩ := s
  split
  · rename_i h
    simp [FixedSurface.value, h, FloatOps.exact]
  · rename_i h
    refine ⟨(v : Rat) * ratPowi 10 (-f), ?_, ?_, ?_⟩
    · simp [FixedSurface.value, h, FloatOps.exact]
    · intro hf
      simp only at hf
      obtain ⟨n, rfl⟩ := Int.eq_ofNat_of_zero_le hf
      cases n with
      | zero => simp [ratPowi]
      | succ n =>
        have : -((n + 1 : Nat) : Int) = Int.negSucc n := rfl
        simp only [this, ratPowi, Int.toNat_natCast]
        have h10 : (10 : Rat) ^ (n + 1) ≠ 0 := by
          have := Rat.pow_pos (a := (10 : Rat)) (n := n + 1) (by decide)
          intro hc
          rw [hc] at this
          exact absurd this (by decide)
        rw [Rat.mul_assoc, Rat.div_mul_cancel h10, Rat.mul_one]
    · intro hf
      simp only at hf
      obtain ⟨n, hn⟩ := Int.eq_ofNat_of_zero_le (show 0 ≤ -f by omega)
      simp only [hn, ratPowi, Int.toNat_natCast]

example : (⟨100, -2, 500⟩ : FixedSurface).value FloatOps.exact = some 50000 ∧
    (⟨103, 1, 25⟩ : FixedSurface).value FloatOps.exact = some (5 / 2) ∧
    (⟨103, 1, -2147483647⟩ : FixedSurface).value FloatOps.exact = none := by decide +kernel

/-- Table 4.4 of the standard, as abbreviations of the units (none: missing). -/
def timeUnitName : Nat → Option String
  | 0 => some "m" | 1 => some "h" | 2 => some "D" | 3 => some "M" | 4 => some "Y" | 5 => some "10Y" | 6 => some "30Y"
  | 7 => some "C" | 10 => some "3h" | 11 => some "6h" | 12 => some "12h" | 13 => some "s" | _ => none

/-- The number a unit code stands for. -/
def unitNumber : Code Table4_4 → Nat
  | .name u => u.toNum
  | .num n => n

/-- C41: the unit of a forecast time keeps its code (nothing is lost), is a named unit exactly for the codes of the table,
and the name says what the table says. -/
theorem C41_time_unit (unit value : Nat) :
    unitNumber (ForecastTime.fromNumbers unit value).unit = unit ∧ (ForecastTime.fromNumbers unit value).value = value ∧
    ((∃ u, (ForecastTime.fromNumbers unit value).unit = .name u) ↔ (timeUnitName unit).isSome ∨ unit = 255) ∧
    (∀ u, (ForecastTime.fromNumbers unit value).unit = .name u → u.shortExpr = timeUnitName unit) := by
  simp only [ForecastTime.fromNumbers, Table4_4.tryFrom]
  split <;> simp_all [Code.ofTry, unitNumber, Table4_4.toNum, timeUnitName, Table4_4.shortExpr]

example : ForecastTime.fromNumbers 11 3 = ⟨.name .sixHours, 3⟩ ∧ ForecastTime.fromNumbers 254 3 = ⟨.num 254, 3⟩ := by decide

/-- C17/C39: the parameter of a submessage of opened data: discipline from section 0, centre and table versions from section
1, category and number from section 4; absent when the product template is not a supported one or section 4 ends before
octet 11.  It never panics. -/
theorem C17_parameter (r : Rdr) (g : Grib2) (h : Grib2.read r = .ok g) (ix : Nat × Nat) (m : SubMessage)
    (hm : (ix, m) ∈ SubIter.drain (g.len + 1) g.iter) :
    (m.parameter : Outcome ε (Option Parameter)) =
      .ok (if field r.data m.s4.2.offset 8 9 ∈ ProdTemplates ∧ 11 ≤ m.s4.2.size then
        some ⟨field r.data m.s0.2.offset 7 7, field r.data m.s1.2.offset 6 7, field r.data m.s1.2.offset 10 10,
          field r.data m.s1.2.offset 11 11, field r.data m.s4.2.offset 10 10, field r.data m.s4.2.offset 11 11⟩
        else none) := by
  obtain ⟨h0, h1, -, h4, -, hs⟩ := C17_accessors r g h ix m hm (ε := ε)
  have f1 := hs (m.s1, 1) (by simp)
  have f4 := hs (m.s4, 4) (by simp)
  obtain ⟨i, hi, hc, -, hmv, hlv, -⟩ := C38_identification (ε := ε) _ _ f1.2.2 f1.1
  have hb4 : m.s4.2.body = some (.section4 (payloadAt r.data m.s4.2.offset m.s4.2.size)) := by
    have hb := f4.2.2.body
    rw [show m.s4.2.num = 4 from f4.1] at hb
    exact hb
  have s4 : Sect4 r.data m.s4.2 ⟨payloadAt r.data m.s4.2.offset m.s4.2.size⟩ := ⟨f4.2.2, f4.1, hb4⟩
  obtain ⟨c1, c2⟩ := C39_parameter (ε := ε) _ _ _ s4
  have hi' : i = ⟨payloadAt r.data m.s1.2.offset m.s1.2.size⟩ := by
    have hb := f1.2.2.body
    rw [show m.s1.2.num = 1 from f1.1] at hb
    simp only [BodyAt] at hb
    rw [hi] at hb
    simp only [Option.some.injEq, SectionBody.section1.injEq] at hb
    cases i; simp only [Identification.mk.injEq]; exact hb
  rw [hi'] at hc hmv hlv
  simp only [SubMessage.parameter, h0, h1, h4, Outcome.bind_ok, hc, hmv, hlv, c1, c2]
  by_cases ht : field r.data m.s4.2.offset 8 9 ∈ ProdTemplates
  · simp only [ht, if_true, true_and, octet?]
    by_cases ha : 11 ≤ m.s4.2.size
    · simp only [if_pos (show 10 ≤ m.s4.2.size by omega), if_pos ha, Outcome.bind_ok]
    · by_cases hb : 10 ≤ m.s4.2.size
      · simp only [if_pos hb, if_neg ha, Outcome.bind_ok]
      · simp only [if_neg hb, if_neg ha]
  · simp [ht]

end Grib.Props
