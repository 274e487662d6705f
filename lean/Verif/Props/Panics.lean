import Verif.Props.GridOutcome
import Verif.Props.InfoInspect

/-! # C64: exactly which opened files make the descriptions and listings panic -/

namespace Grib.Cli

open Grib.Text Grib.Model Grib.Codes Grib.Spec Grib.Props

variable {ε F G : Type}

/-- The product definition section `s` ends before the unit or the four octets of the time its template places there. -/
def TimeCut (data : List UInt8) (s : SectionInfo) : Prop :=
  field data s.offset 8 9 ∈ ProdTemplates ∧ ∃ o, timeOctet (field data s.offset 8 9) = some o ∧ s.size < o + 4

/-- The product definition section `s` ends before the last of the twelve octets of the surfaces its template places there. -/
def SurfacesCut (data : List UInt8) (s : SectionInfo) : Prop :=
  field data s.offset 8 9 ∈ ProdTemplates ∧ ∃ o, surfaceOctet (field data s.offset 8 9) = some o ∧ s.size < o + 11

/-- The grid definition section `s` is shorter than its template (0, 20, 30 and 40 being the known ones). -/
def GridCut (data : List UInt8) (s : SectionInfo) : Prop :=
  (field data s.offset 13 14 = 0 ∧ s.size < 72) ∨ (field data s.offset 13 14 = 20 ∧ s.size < 65) ∨
  (field data s.offset 13 14 = 30 ∧ s.size < 73) ∨ (field data s.offset 13 14 = 40 ∧ s.size < 72)

/-- C64. The time accessor of a product definition panics exactly if the section ends before the time. -/
theorem C64_time (data : List UInt8) (s : SectionInfo) (i : ProdDefinition) (h : Sect4 data s i) :
    (i.forecastTime : Outcome ε (Option (Nat × Nat))) = .panic ↔ TimeCut data s := by
  constructor
  · intro hp
    apply Classical.byContradiction
    intro hn
    by_cases h44 : field data s.offset 8 9 = 44
    · -- like the other templates, with four octets
      obtain ⟨h1, h2, h3⟩ := h.facts
      have e1 : (44 : Nat) ∈ ProdTemplates := by decide
      have e0 : timeOctet 44 = some 31 := by decide
      have hs : 35 ≤ s.size := by
        apply Classical.byContradiction
        intro hlt
        exact hn ⟨by rw [h44]; exact e1, 31, by rw [h44]; exact e0, by omega⟩
      have e2 : ProdDefinition.arm ProdDefinition.forecastTimeArms 44 = some 21 := by decide
      simp only [ProdDefinition.forecastTime, h.supported, h.tmpl, Outcome.bind_ok, h44, e1, decide_true, if_true, e2] at hp
      rw [h1, rdAs_payload h2 (by omega) (by omega), if_pos (by omega)] at hp
      cases hp
    · have := C39_forecast_time_partial (ε := ε) data s i h h44 (fun o hc ho => by
        have e4 : timeLength (field data s.offset 8 9) = 4 := by simp [timeLength, h44]
        rw [e4]
        apply Classical.byContradiction
        intro hlt
        exact hn ⟨hc, o, ho, by omega⟩)
      rw [this] at hp
      cases hp
  · rintro ⟨hc, o, ho, hs⟩
    exact C39_forecast_time_fails data s i h o hc ho hs

/-- C64. The surface accessor of a product definition panics exactly if the section ends before the end of the surfaces. -/
theorem C64_surfaces (data : List UInt8) (s : SectionInfo) (i : ProdDefinition) (h : Sect4 data s i) :
    (i.fixedSurfaces : Outcome ε (Option (FixedSurface × FixedSurface))) = .panic ↔ SurfacesCut data s := by
  constructor
  · intro hp
    apply Classical.byContradiction
    intro hn
    rw [C39_fixed_surfaces_partial data s i h (fun o hc ho => by
      apply Classical.byContradiction
      intro hlt
      exact hn ⟨hc, o, ho, by omega⟩)] at hp
    cases hp
  · rintro ⟨hc, o, ho, hs⟩
    exact C39_fixed_surfaces_fails data s i h o hc ho hs

/-- C64. The other accessors of a product definition never panic. -/
theorem C64_others (data : List UInt8) (s : SectionInfo) (i : ProdDefinition) (h : Sect4 data s i) :
    (∃ v, (i.parameterCategory : Outcome ε _) = .ok v) ∧ (∃ v, (i.parameterNumber : Outcome ε _) = .ok v) ∧
    (∃ v, (i.generatingProcess : Outcome ε _) = .ok v) := by
  obtain ⟨h1, h2⟩ := C39_parameter (ε := ε) data s i h
  refine ⟨⟨_, h1⟩, ⟨_, h2⟩, ?_⟩
  unfold ProdDefinition.generatingProcess
  simp only [h.supported, h.tmpl, Outcome.bind_ok]
  split
  · exact ⟨_, rfl⟩
  · exact ⟨_, rfl⟩

/-- C64. `describe()` of a listed submessage panics exactly if its product definition ends before the time or the surfaces of
its template. -/
theorem C64_describe (k : Constants) (r : Rdr) (g : Grib2) (h : Grib2.read r = .ok g) (ix : Nat × Nat)
    (m : SubMessage) (hm : (ix, m) ∈ SubIter.drain (g.len + 1) g.iter) :
    (m.describe k : Outcome Empty _) = .panic ↔ TimeCut r.data m.s4.2 ∨ SurfacesCut r.data m.s4.2 := by
  rw [C54_describe_panics_iff k r g h ix m hm, C64_time _ _ _ (sect4 (r := r) (facts h hm)),
    C64_surfaces _ _ _ (sect4 (r := r) (facts h hm))]

theorem sectNumber_payload {data : List UInt8} {p size : Nat} (h : p + size ≤ data.length) (h14 : 14 ≤ size) :
    sectNumber (payloadAt data p size) 13 14 = field data p 13 14 := by
  have h1 := rdAs_payload (ε := Empty) (start := 7) (len := 2) h (by omega) (by omega)
  have h2 := rdAs_number (ε := Empty) (p := payloadAt data p size) (i := 7) (n := 2)
    (by rw [payloadAt_length h]; omega)
  rw [if_pos (by omega), h2] at h1
  injection h1

/-- C64. The grid type of a listed submessage panics exactly if its grid definition is shorter than its template. -/
theorem C64_grid_type (data : List UInt8) (s : SectionInfo) (h : Faithful data s) (hn : s.num = 3) :
    gridType ⟨payloadAt data s.offset s.size⟩ = .panic ↔ GridCut data s := by
  obtain ⟨h1, h2, h3⟩ := faithful_payload h (by omega) (by omega)
  rw [hn] at h3
  simp only [minPayload] at h3
  have ht := (C63_definition ⟨payloadAt data s.offset s.size⟩).panic_iff
  dsimp only at ht
  rw [payloadAt_length h1, sectNumber_payload h1 (by omega)] at ht
  have hi : gridType ⟨payloadAt data s.offset s.size⟩ = .panic ↔
      GridTemplate.tryFrom ⟨payloadAt data s.offset s.size⟩ = .panic := by
    unfold gridType
    split
    · rename_i t e; rw [e]; simp
    · rename_i t e
      rw [e, GridDefinition.gridTmplNum, rdAs_payload h1 h2 (by omega), if_pos (by omega)]
      simp
    · rename_i e; rw [e]; simp
  rw [hi, ht]
  unfold GridCut
  omega

/-- What makes a line of `list` panic: besides the two reasons of `describe()`, a grid definition shorter than its template,
or a representation that states more values than the grid has points. -/
def RowPanics (data : List UInt8) (m : SubMessage) : Prop :=
  TimeCut data m.s4.2 ∨ SurfacesCut data m.s4.2 ∨ GridCut data m.s3.2 ∨
    field data m.s3.2.offset 7 10 < field data m.s5.2.offset 6 9

/-- C64. A line of `list` panics exactly in these cases. -/
theorem C64_list_row (k : Constants) (ops : FloatOps G) (showF : G → Str) (r : Rdr) (g : Grib2) (h : Grib2.read r = .ok g)
    (ix : Nat × Nat) (m : SubMessage) (hm : (ix, m) ∈ SubIter.drain (g.len + 1) g.iter) :
    listRow k ops showF ix m = .panic ↔ RowPanics r.data m := by
  have hf := facts h hm
  obtain ⟨v1, v2, v3, v4, v5, v6, v7, v8⟩ := view_reads (ε := Empty) h hm
  obtain ⟨-, -, p, hp⟩ := C64_others (ε := Empty) _ _ _ (sect4 (r := r) hf)
  have ht := C64_time (ε := Empty) _ _ _ (sect4 (r := r) hf)
  have hs := C64_surfaces (ε := Empty) _ _ _ (sect4 (r := r) hf)
  have hg := C64_grid_type _ _ hf.f3.1 hf.f3.2
  unfold RowPanics
  rw [← ht, ← hs, ← hg]
  unfold listRow
  simp only [v1, v2, v3, v4, v5, v6, v7, v8, hp, Outcome.bind_ok]
  cases ((prodOf r.data m).forecastTime : Outcome Empty _) with
  | err e => exact e.elim
  | panic => simp
  | ok t =>
    cases ((prodOf r.data m).fixedSurfaces : Outcome Empty _) with
    | err e => exact e.elim
    | panic => simp
    | ok s =>
      cases gridType ⟨payloadAt r.data m.s3.2.offset m.s3.2.size⟩ with
      | err e => exact e.elim
      | panic => simp
      | ok t =>
        simp only [Outcome.bind_ok]
        by_cases hle : field r.data m.s5.2.offset 6 9 ≤ field r.data m.s3.2.offset 7 10
        · simp [Outcome.require, hle]
        · simp [Outcome.require, hle]
          omega

/-- All lines of a listing, or the panic of one of them. -/
theorem mapSubs_panic {α : Type} (f : Nat × Nat → SubMessage → Outcome Empty α) (xs : List ((Nat × Nat) × SubMessage)) :
    mapSubs f xs = .panic ↔ ∃ x ∈ xs, f x.1 x.2 = .panic := by
  induction xs with
  | nil => simp [mapSubs]
  | cons x xs ih =>
    unfold mapSubs
    cases hx : f x.1 x.2 with
    | err e => exact e.elim
    | panic => simp [hx]
    | ok a =>
      simp only [Outcome.bind_ok, List.mem_cons, exists_eq_or_imp, hx, reduceCtorEq, false_or, ← ih]
      cases mapSubs f xs with
      | err e => exact e.elim
      | panic => simp
      | ok as => simp

/-- C64. `list` panics exactly if one of its lines does. -/
theorem C64_list (k : Constants) (ops : FloatOps G) (showF : G → Str) (r : Rdr) (g : Grib2) (h : Grib2.read r = .ok g) :
    listRows k ops showF g = .panic ↔
      ∃ ix m, (ix, m) ∈ SubIter.drain (g.len + 1) g.iter ∧ RowPanics r.data m := by
  unfold listRows
  rw [mapSubs_panic]
  constructor
  · rintro ⟨x, hx, hp⟩
    exact ⟨x.1, x.2, hx, (C64_list_row k ops showF r g h x.1 x.2 hx).1 hp⟩
  · rintro ⟨ix, m, hm, hp⟩
    exact ⟨(ix, m), hm, (C64_list_row k ops showF r g h ix m hm).2 hp⟩

/-- C64. `list --dump` panics exactly if the description of one of the submessages does. -/
theorem C64_dump (k : Constants) (r : Rdr) (g : Grib2) (h : Grib2.read r = .ok g) :
    listDump k g = .panic ↔
      ∃ ix m, (ix, m) ∈ SubIter.drain (g.len + 1) g.iter ∧ (TimeCut r.data m.s4.2 ∨ SurfacesCut r.data m.s4.2) := by
  unfold listDump
  have e : ∀ (ix : Nat × Nat) (m : SubMessage), ((do
      let d ← m.describe k
      .ok (showIndex ix ++ ['\n'] ++ d ++ ['\n']) : Outcome Empty Str) = .panic ↔ (m.describe k : Outcome Empty _) = .panic) := by
    intro ix m
    cases (m.describe k : Outcome Empty _) with
    | err e => exact e.elim
    | panic => simp
    | ok d => simp
  have hm := mapSubs_panic (fun i m => (do
    let d ← m.describe k
    .ok (showIndex i ++ ['\n'] ++ d ++ ['\n']) : Outcome Empty Str)) (SubIter.drain (g.len + 1) g.iter)
  simp only [e] at hm
  have hl : ∀ x : Outcome Empty (List Str), ((do let parts ← x; .ok parts.flatten : Outcome Empty Str) = .panic ↔ x = .panic) := by
    intro x
    cases x with
    | err e => exact e.elim
    | panic => simp
    | ok d => simp
  rw [hl, hm]
  constructor
  · rintro ⟨x, hx, hp⟩
    exact ⟨x.1, x.2, hx, (C64_describe k r g h x.1 x.2 hx).1 hp⟩
  · rintro ⟨ix, m, hm, hp⟩
    exact ⟨(ix, m), hm, (C64_describe k r g h ix m hm).2 hp⟩

/-! ### Concrete files -/

/-- `fullFile` lists; without the surfaces (section 4 cut after the time) its description panics; with a cut time too. -/
def cutRaw (n : Nat) : RawMessage :=
  { fullRaw with first := { fullRaw.first with prod := fullRaw.first.prod.take n } }

example : ∃ g, Grib2.read ⟨fullFile, 0, []⟩ = .ok g ∧
    ((SubIter.drain (g.len + 1) g.iter).map fun x => (decide (x.2.s4.2.size < 18 + 4), decide (x.2.s4.2.size < 23 + 11))) =
      [(false, false)] :=
  Outcome.exists_of_ok? (f := fun g : Grib2 => ((SubIter.drain (g.len + 1) g.iter).map fun x =>
    (decide (x.2.s4.2.size < 18 + 4), decide (x.2.s4.2.size < 23 + 11)))) (by decide +kernel)

example : timeOctet 0 = some 18 ∧ surfaceOctet 0 = some 23 := by decide

example : ∃ g, Grib2.read ⟨messagesBytes [([], cutRaw 28)], 0, []⟩ = .ok g ∧
    ((SubIter.drain (g.len + 1) g.iter).map fun x =>
      (x.2.s4.2.size, decide ((x.2.describe noTables : Outcome Empty _) = .panic),
        decide (listRow noTables FloatOps.exact showOpt x.1 x.2 = .panic))) = [(33, true, true)] :=
  Outcome.exists_of_ok? (f := fun g : Grib2 => ((SubIter.drain (g.len + 1) g.iter).map fun x =>
    (x.2.s4.2.size, decide ((x.2.describe noTables : Outcome Empty _) = .panic),
        decide (listRow noTables FloatOps.exact showOpt x.1 x.2 = .panic)))) (by decide +kernel)

end Grib.Cli
