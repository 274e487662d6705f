import Verif.Props.Cli
import Verif.Props.DecodeCmd
import Verif.Props.Headers
import Verif.Lemmas.Grid
import Verif.Model.CliViews

/-! # C54-C57: descriptions, `list`, `info`, `inspect` and the pager -/

namespace Grib.Cli

open Grib.Text Grib.Model Grib.Spec Grib.Props Grib.Codes

variable {ε F G : Type}

theorem getTmplCode_3 {data : List UInt8} {s : SectionInfo} (h : Faithful data s) (hn : s.num = 3) :
    (s.getTmplCode : Outcome ε _) = .ok (some (3, field data s.offset 13 14)) := by
  obtain ⟨i, h1, -, h3⟩ := C38_grid_definition (ε := ε) data s h hn
  unfold SectionInfo.getTmplCode
  rw [h1]
  dsimp only
  unfold SectionBody.getTmplNum
  dsimp only
  rw [show (GridDefinition.mk i.payload).gridTmplNum = i.gridTmplNum from rfl, h3, hn]
  rfl

theorem getTmplCode_4 {data : List UInt8} {s : SectionInfo} (h : Faithful data s) (hn : s.num = 4) :
    (s.getTmplCode : Outcome ε _) = .ok (some (4, field data s.offset 8 9)) := by
  obtain ⟨i, h1, -, h3⟩ := C38_product_definition (ε := ε) data s h hn
  unfold SectionInfo.getTmplCode
  rw [h1]
  dsimp only
  unfold SectionBody.getTmplNum
  dsimp only
  rw [show (ProdDefinition.mk i.payload).prodTmplNum = i.prodTmplNum from rfl, h3, hn]
  rfl

theorem getTmplCode_5 {data : List UInt8} {s : SectionInfo} (h : Faithful data s) (hn : s.num = 5) :
    (s.getTmplCode : Outcome ε _) = .ok (some (5, field data s.offset 10 11)) := by
  obtain ⟨i, h1, -, h3⟩ := C38_representation (ε := ε) data s h hn
  unfold SectionInfo.getTmplCode
  rw [h1]
  dsimp only
  unfold SectionBody.getTmplNum
  dsimp only
  rw [show (ReprDefinition.mk i.payload).reprTmplNum = i.reprTmplNum from rfl, h3, hn]
  rfl

/-- What the octets of the file say about a listed submessage, as far as the descriptions need it. -/
structure Facts (data : List UInt8) (m : SubMessage) : Prop where
  f0 : Faithful data m.s0.2 ∧ m.s0.2.num = 0
  f1 : Faithful data m.s1.2 ∧ m.s1.2.num = 1
  f3 : Faithful data m.s3.2 ∧ m.s3.2.num = 3
  f4 : Faithful data m.s4.2 ∧ m.s4.2.num = 4
  f5 : Faithful data m.s5.2 ∧ m.s5.2.num = 5

theorem facts {r : Rdr} {g : Grib2} (h : Grib2.read r = .ok g) {ix : Nat × Nat} {m : SubMessage}
    (hm : (ix, m) ∈ SubIter.drain (g.len + 1) g.iter) : Facts r.data m := by
  have hk := (C17_accessors (ε := Unit) r g h ix m hm).2.2.2.2.2
  have key : ∀ s n, (s, n) ∈ [(m.s0, 0), (m.s1, 1), (m.s3, 3), (m.s4, 4), (m.s5, 5), (m.s6, 6), (m.s7, 7)] →
      Faithful r.data s.2 ∧ s.2.num = n := fun s n hs => ⟨(hk (s, n) hs).2.2, (hk (s, n) hs).1⟩
  exact ⟨key _ _ (by simp), key _ _ (by simp), key _ _ (by simp), key _ _ (by simp), key _ _ (by simp)⟩

/-- The product definition of a listed submessage. -/
def prodOf (data : List UInt8) (m : SubMessage) : ProdDefinition := ⟨payloadAt data m.s4.2.offset m.s4.2.size⟩

theorem sect4 {r : Rdr} {m : SubMessage} (hf : Facts r.data m) : Sect4 r.data m.s4.2 (prodOf r.data m) := by
  obtain ⟨h1, h2⟩ := hf.f4
  refine ⟨h1, h2, ?_⟩
  have hb := h1.body
  rw [h2] at hb
  simpa only [BodyAt, prodOf, payloadAt] using hb

/-- Octets 10 and 11 of section 4 (parameter category and number), if its template is one of the supported ones. -/
def categoryOf (data : List UInt8) (m : SubMessage) : Option Nat :=
  if field data m.s4.2.offset 8 9 ∈ ProdTemplates then octet? data m.s4.2 10 else none

def numberOf (data : List UInt8) (m : SubMessage) : Option Nat :=
  if field data m.s4.2.offset 8 9 ∈ ProdTemplates then octet? data m.s4.2 11 else none

/-- Everything the text views read of a listed submessage other than generating process, time and surfaces (which C39 is
about). -/
theorem view_reads {r : Rdr} {g : Grib2} (h : Grib2.read r = .ok g) {ix : Nat × Nat} {m : SubMessage}
    (hm : (ix, m) ∈ SubIter.drain (g.len + 1) g.iter) :
    (m.prodDef : Outcome ε _) = .ok (prodOf r.data m) ∧
    ((prodOf r.data m).parameterCategory : Outcome ε _) = .ok (categoryOf r.data m) ∧
    ((prodOf r.data m).parameterNumber : Outcome ε _) = .ok (numberOf r.data m) ∧
    (m.indicator : Outcome ε _) = .ok ⟨field r.data m.s0.2.offset 7 7, field r.data m.s0.2.offset 9 16⟩ ∧
    (m.gridDef : Outcome ε _) = .ok ⟨payloadAt r.data m.s3.2.offset m.s3.2.size⟩ ∧
    ((GridDefinition.mk (payloadAt r.data m.s3.2.offset m.s3.2.size)).numPoints : Outcome ε _) =
      .ok (field r.data m.s3.2.offset 7 10) ∧
    (m.reprDef : Outcome ε _) = .ok ⟨payloadAt r.data m.s5.2.offset m.s5.2.size⟩ ∧
    ((ReprDefinition.mk (payloadAt r.data m.s5.2.offset m.s5.2.size)).numPoints : Outcome ε _) =
      .ok (field r.data m.s5.2.offset 6 9) := by
  have hf := facts h hm
  obtain ⟨a0, a1, a3, a4, a5, -⟩ := C17_accessors (ε := ε) r g h ix m hm
  have hp := C39_parameter (ε := ε) _ _ _ (sect4 (r := r) hf)
  obtain ⟨i3, b3, n3, -⟩ := C38_grid_definition (ε := ε) _ _ hf.f3.1 hf.f3.2
  obtain ⟨i5, b5, n5, -⟩ := C38_representation (ε := ε) _ _ hf.f5.1 hf.f5.2
  refine ⟨a4, hp.1, hp.2, a0, a3, ?_, a5, ?_⟩
  · have hb := hf.f3.1.body
    rw [hf.f3.2, b3] at hb
    simp only [BodyAt, Option.some.injEq, SectionBody.section3.injEq] at hb
    rw [← n3]; unfold payloadAt; rw [← hb]
  · have hb := hf.f5.1.body
    rw [hf.f5.2, b5] at hb
    simp only [BodyAt, Option.some.injEq, SectionBody.section5.injEq] at hb
    rw [← n5]; unfold payloadAt; rw [← hb]

/-! ## C54 -/

/-- C54: `describe()` of a listed submessage shows its own fields, in this order: the texts of its grid, product and
representation templates, the stated numbers of points, category and parameter in the tables of its own discipline (and
category), and its generating process, time and surfaces (`p`, `t`, `s`: see C39 for these). -/
theorem C54_values (k : Constants) (r : Rdr) (g : Grib2) (h : Grib2.read r = .ok g) (ix : Nat × Nat) (m : SubMessage)
    (hm : (ix, m) ∈ SubIter.drain (g.len + 1) g.iter) (p : Option Nat) (t : Option (Nat × Nat))
    (s : Option (FixedSurface × FixedSurface))
    (hp : ((prodOf r.data m).generatingProcess : Outcome ε _) = .ok p)
    (ht : ((prodOf r.data m).forecastTime : Outcome ε _) = .ok t)
    (hs : ((prodOf r.data m).fixedSurfaces : Outcome ε _) = .ok s) :
    (m.describeValues k : Outcome ε _) = .ok
      [tableText k .t3_1 (field r.data m.s3.2.offset 13 14),
       showNat (field r.data m.s3.2.offset 7 10),
       tableText k .t4_0 (field r.data m.s4.2.offset 8 9),
       ((categoryOf r.data m).map (tableText k (.t4_1 (field r.data m.s0.2.offset 7 7)))).getD [],
       ((numberOf r.data m).bind fun n => (categoryOf r.data m).map fun c =>
          tableText k (.t4_2 (field r.data m.s0.2.offset 7 7) c) n).getD [],
       (p.map (tableText k .t4_3)).getD [],
       (t.map fun t => showNat t.2).getD [],
       (t.map fun t => (ForecastTime.fromNumbers t.1 t.2).describe.1).getD [],
       (s.map fun s => (s.1.describe k).1).getD [],
       (s.map fun s => (s.1.describe k).2.1).getD [],
       (s.map fun s => (s.1.describe k).2.2).getD [],
       (s.map fun s => (s.2.describe k).1).getD [],
       (s.map fun s => (s.2.describe k).2.1).getD [],
       (s.map fun s => (s.2.describe k).2.2).getD [],
       tableText k .t5_0 (field r.data m.s5.2.offset 10 11),
       showNat (field r.data m.s5.2.offset 6 9)] := by
  have hf := facts h hm
  obtain ⟨v1, v2, v3, v4, v5, v6, v7, v8⟩ := view_reads (ε := ε) h hm
  unfold SubMessage.describeValues SubMessageSection.describe
  simp only [v1, v2, v3, v4, v5, v6, v7, v8, hp, ht, hs, getTmplCode_3 hf.f3.1 hf.f3.2, getTmplCode_4 hf.f4.1 hf.f4.2,
    getTmplCode_5 hf.f5.1 hf.f5.2, Outcome.bind_ok]
  cases t <;> cases s <;> rfl

/-- What the lines of `describe()` are about; the grid, the product and the data representation have lines of their own below
them, indented by two spaces. -/
def describedNames : List String :=
  ["Grid", "  Number of points",
   "Product", "  Parameter Category", "  Parameter", "  Generating Proceess", "  Forecast Time", "  Forecast Time Unit",
   "  1st Fixed Surface Type", "  1st Scale Factor", "  1st Scaled Value",
   "  2nd Fixed Surface Type", "  2nd Scale Factor", "  2nd Scaled Value",
   "Data Representation", "  Number of represented values"]

/-- A name, a colon and spaces up to 40 characters. -/
def label (name : String) : Str := name.toList ++ [':'] ++ List.replicate (40 - (name.toList.length + 1)) ' '

/-- C54: `describe()` is sixteen lines, each a label of 40 characters followed by the value. -/
theorem C54_text (k : Constants) (m : SubMessage) (vs : List Str) (h : (m.describeValues k : Outcome ε _) = .ok vs) :
    (m.describe k : Outcome ε _) = .ok ((describeLabels.zip vs).flatMap fun x => x.1.toList ++ x.2 ++ ['\n']) ∧
    vs.length = 16 ∧ describeLabels.length = 16 ∧ (∀ l ∈ describeLabels, l.toList.length = 40) ∧
    describeLabels.map String.toList = describedNames.map label := by
  refine ⟨?_, ?_, rfl, by decide, by decide⟩
  · unfold SubMessage.describe; rw [h]; rfl
  · unfold SubMessage.describeValues at h
    simp only [bind, Outcome.bind] at h
    repeat' (split at h <;> try (cases h; done))
    all_goals (cases h; rfl)

/-- C54: `describe()` of a listed submessage panics exactly when its section 4 is too short for the time or the surfaces of
its template. -/
theorem C54_describe_panics_iff (k : Constants) (r : Rdr) (g : Grib2) (h : Grib2.read r = .ok g) (ix : Nat × Nat)
    (m : SubMessage) (hm : (ix, m) ∈ SubIter.drain (g.len + 1) g.iter) :
    (m.describe k : Outcome Empty _) = .panic ↔
      ((prodOf r.data m).forecastTime : Outcome Empty _) = .panic ∨
      ((prodOf r.data m).fixedSurfaces : Outcome Empty _) = .panic := by
  have hf := facts h hm
  obtain ⟨v1, v2, v3, v4, v5, v6, v7, v8⟩ := view_reads (ε := Empty) h hm
  have hgp : ∃ p, ((prodOf r.data m).generatingProcess : Outcome Empty _) = .ok p := by
    unfold ProdDefinition.generatingProcess
    simp only [(sect4 (r := r) hf).supported, (sect4 (r := r) hf).tmpl, Outcome.bind_ok]
    split
    · exact ⟨_, rfl⟩
    · exact ⟨_, rfl⟩
  obtain ⟨p, hp⟩ := hgp
  cases ht : ((prodOf r.data m).forecastTime : Outcome Empty _) with
  | err e => exact e.elim
  | panic =>
    simp only [true_or, iff_true]
    unfold SubMessage.describe SubMessage.describeValues
    simp only [v1, v2, ht, Outcome.bind_ok, Outcome.bind_panic]
  | ok t =>
    cases hs : ((prodOf r.data m).fixedSurfaces : Outcome Empty _) with
    | err e => exact e.elim
    | panic =>
      simp only [or_true, iff_true]
      unfold SubMessage.describe SubMessage.describeValues
      simp only [v1, v2, ht, hs, Outcome.bind_ok, Outcome.bind_panic]
    | ok s =>
      have := C54_values (ε := Empty) k r g h ix m hm p t s hp ht hs
      unfold SubMessage.describe
      rw [this]
      simp

/-- C54: a line of `list` shows the same parameter, process, time and surfaces, the number of points, and how many of them
have no value; and it begins with the index that `decode` understands. -/
theorem C54_list_row (k : Constants) (ops : FloatOps G) (showF : G → Str) (r : Rdr) (g : Grib2) (h : Grib2.read r = .ok g)
    (ix : Nat × Nat) (m : SubMessage) (hm : (ix, m) ∈ SubIter.drain (g.len + 1) g.iter) (row : ListRow)
    (hr : listRow k ops showF ix m = .ok row) :
    row.id = showIndex ix ∧
    row.category = ((categoryOf r.data m).bind fun c => (numberOf r.data m).map fun n =>
      tableText k (.t4_2 (field r.data m.s0.2.offset 7 7) c) n).getD [] ∧
    row.total = field r.data m.s3.2.offset 7 10 ∧
    row.missing + field r.data m.s5.2.offset 6 9 = row.total ∧
    (∀ p, ((prodOf r.data m).generatingProcess : Outcome Empty _) = .ok p → row.process = (p.map (tableText k .t4_3)).getD []) ∧
    (∀ t, ((prodOf r.data m).forecastTime : Outcome Empty _) = .ok t →
      row.time = (t.map fun t => (ForecastTime.fromNumbers t.1 t.2).show).getD []) ∧
    (∀ s, ((prodOf r.data m).fixedSurfaces : Outcome Empty _) = .ok s →
      row.surface1 = (s.map fun s => formatSurface ops showF s.1).getD [] ∧
      row.surface2 = (s.map fun s => formatSurface ops showF s.2).getD []) := by
  obtain ⟨v1, v2, v3, v4, v5, v6, v7, v8⟩ := view_reads (ε := Empty) h hm
  unfold listRow at hr
  simp only [v1, v2, v3, v4, v5, v6, v7, v8, Outcome.bind_ok] at hr
  obtain ⟨p, hp, hr⟩ := Outcome.bind_eq_ok hr
  obtain ⟨t, ht, hr⟩ := Outcome.bind_eq_ok hr
  obtain ⟨s, hs, hr⟩ := Outcome.bind_eq_ok hr
  obtain ⟨gt, hgt, hr⟩ := Outcome.bind_eq_ok hr
  obtain ⟨u, hu, hr⟩ := Outcome.bind_eq_ok hr
  have hle : field r.data m.s5.2.offset 6 9 ≤ field r.data m.s3.2.offset 7 10 := by
    unfold Outcome.require at hu
    split at hu
    · rename_i hd; simpa using hd
    · cases hu
  cases hr
  refine ⟨rfl, rfl, rfl, by dsimp only; omega, ?_, ?_, ?_⟩
  · intro p' hp'; rw [hp] at hp'; cases hp'; rfl
  · intro t' ht'; rw [ht] at ht'; cases ht'; rfl
  · intro s' hs'; rw [hs] at hs'; cases hs'; cases s <;> exact ⟨rfl, rfl⟩

/-- C54, failure: a representation that states more values than the grid has points makes `list` panic. -/
theorem C54_list_fails (k : Constants) (ops : FloatOps G) (showF : G → Str) (r : Rdr) (g : Grib2) (h : Grib2.read r = .ok g)
    (ix : Nat × Nat) (m : SubMessage) (hm : (ix, m) ∈ SubIter.drain (g.len + 1) g.iter)
    (hlt : field r.data m.s3.2.offset 7 10 < field r.data m.s5.2.offset 6 9) :
    listRow k ops showF ix m = .panic := by
  cases hr : listRow k ops showF ix m with
  | panic => rfl
  | err e => exact e.elim
  | ok row =>
    obtain ⟨-, -, h1, h2, -⟩ := C54_list_row k ops showF r g h ix m hm row hr
    omega

/-! ### A concrete file -/

/-- The constants without any table entries: every code shows as its number. -/
def noTables : Constants := ⟨fun _ => some [], fun _ => some []⟩

/-- `gridRaw` with a complete product definition of template 4.0: category 0, number 4, process 2, in 6 hours, from 100000
Pa to a missing surface. -/
def fullRaw : RawMessage :=
  { gridRaw with first := { gridRaw.first with prod :=
      [0, 0, 0, 0, 0, 4, 2, 0, 0, 0, 0, 0, 1, 0, 0, 0, 6, 100, 0, 0, 1, 134, 160, 255, 255, 255, 255, 255, 255] } }

def fullFile : List UInt8 := messagesBytes [([], fullRaw)]

/-- A `Display` of exact numbers that need not be finite. -/
def showOpt : Option Rat → Str
  | none => "NaN".toList
  | some q => showInt q.num ++ (if q.den = 1 then [] else '/' :: showNat q.den)

example : ∃ g, Grib2.read ⟨fullFile, 0, []⟩ = .ok g ∧
    ((SubIter.drain (g.len + 1) g.iter).map fun x => (x.2.describeValues noTables : Outcome Empty _).ok?) =
    [some ["code '0' is not implemented".toList, "4".toList, "code '0' is not implemented".toList,
        "code '0' is not implemented".toList, "code '4' is not implemented".toList, "code '2' is not implemented".toList,
        "6".toList, "Hour".toList, "code '100' is not implemented".toList, "0".toList, "100000".toList,
        "code '255' is not implemented".toList, "Missing".toList, "Missing".toList, "code '0' is not implemented".toList, "2".toList]] :=
  Outcome.exists_of_ok? (f := fun g : Grib2 => ((SubIter.drain (g.len + 1) g.iter).map fun x =>
    (x.2.describeValues noTables : Outcome Empty _).ok?)) (by decide +kernel)

example : ∃ g, Grib2.read ⟨fullFile, 0, []⟩ = .ok g ∧
    ((SubIter.drain (g.len + 1) g.iter).map fun x => (listRow noTables FloatOps.exact showOpt x.1 x.2).ok?) =
    [some ⟨"0.0".toList, "code '4' is not implemented".toList, "code '2' is not implemented".toList, "6 [h]".toList,
        "100000 [Pa]".toList, "NaN".toList, 2, 4, "regular_ll".toList⟩] :=
  Outcome.exists_of_ok? (f := fun g : Grib2 => ((SubIter.drain (g.len + 1) g.iter).map fun x =>
    (listRow noTables FloatOps.exact showOpt x.1 x.2).ok?)) (by decide +kernel)

end Grib.Cli
