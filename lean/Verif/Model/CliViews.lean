import Verif.Model.Calendar
import Verif.Model.Cli
import Verif.Model.Describe

/-!
# Model of the `list`, `inspect` and `info` commands: the texts they print

Colours and the pager itself are not modelled; the decision to start it (`num_lines`) is.  Widths of text count
characters, as Rust's formatter does.
-/

namespace Grib.Cli

open Grib.Text Grib.Model Grib.Codes

variable {F G : Type}

/-- `{:>n}`. -/
def padLeft (n : Nat) (s : Str) : Str := List.replicate (n - s.length) ' ' ++ s

/-- `{:<n}`. -/
def padRight (n : Nat) (s : Str) : Str := s ++ List.replicate (n - s.length) ' '

/-- `{:016x}`. -/
def hex16 (n : Nat) : Str := List.replicate (16 - (Nat.toDigits 16 n).length) '0' ++ Nat.toDigits 16 n

/-! ## `list` -/

/-- The cells of a line of `list` (cli/src/commands/list.rs:84-124), before padding. -/
structure ListRow where
  id : Str
  category : Str
  process : Str
  time : Str
  surface1 : Str
  surface2 : Str
  missing : Nat
  total : Nat
  gridType : Str
deriving DecidableEq, Repr

/-- `format_surface` (cli/src/commands/list.rs:149-156); `showF` is `Display` of an `f64`. -/
def formatSurface (ops : FloatOps G) (showF : G → Str) (s : FixedSurface) : Str :=
  showF (s.value ops) ++ ((s.unit.map fun u => " [".toList ++ u.toList ++ "]".toList).getD [])

/-- The grid type column (cli/src/commands/list.rs:109-113): `unwrap_or_else` covers errors, not panics. -/
def gridType (d : GridDefinition) : Outcome Empty Str :=
  match GridTemplate.tryFrom d with
  | .ok t => .ok t.shortName.toList
  | .err _ => do
    let n ← d.gridTmplNum
    .ok ("unknown (template ".toList ++ showNat n ++ ")".toList)
  | .panic => .panic

/-- A line of `list` (cli/src/commands/list.rs:84-125).  The subtraction of `u32` may underflow. -/
def listRow (k : Constants) (ops : FloatOps G) (showF : G → Str) (i : Nat × Nat) (m : SubMessage) : Outcome Empty ListRow := do
  let prod ← m.prodDef
  let c ← prod.parameterCategory
  let n ← prod.parameterNumber
  let ind ← m.indicator
  let process ← prod.generatingProcess
  let time ← prod.forecastTime
  let surfaces ← prod.fixedSurfaces
  let surfaces := (surfaces.map fun s => (formatSurface ops showF s.1, formatSurface ops showF s.2)).getD ([], [])
  let grid ← m.gridDef
  let total ← grid.numPoints
  let repr ← m.reprDef
  let represented ← repr.numPoints
  let gridType ← gridType grid
  Outcome.require (decide (represented ≤ total))
  .ok { id := showIndex i
        category := (c.bind fun c => n.map fun n => tableText k (.t4_2 ind.discipline c) n).getD []
        process := (process.map fun v => tableText k .t4_3 v).getD []
        time := (time.map fun t => (ForecastTime.fromNumbers t.1 t.2).show).getD []
        surface1 := surfaces.1
        surface2 := surfaces.2
        missing := total - represented
        total := total
        gridType := gridType }

/-- The `format!` of a line of `list` (cli/src/commands/list.rs:114-125). -/
def ListRow.line (r : ListRow) : Str :=
  padLeft 8 r.id ++ " │ ".toList ++ padRight 31 r.category ++ [' '] ++ padRight 18 r.process ++ [' '] ++ padLeft 14 r.time ++
  [' '] ++ padLeft 33 r.surface1 ++ [' '] ++ padLeft 33 r.surface2 ++ " │ ".toList ++ padLeft 10 (showNat r.missing) ++
  ['/'] ++ padLeft 10 (showNat r.total) ++ [' '] ++ padRight 21 r.gridType

/-- All of them, in order; the first panic ends the program. -/
def mapSubs {α : Type} (f : Nat × Nat → SubMessage → Outcome Empty α) : List ((Nat × Nat) × SubMessage) → Outcome Empty (List α)
  | [] => .ok []
  | x :: xs => do
    let a ← f x.1 x.2
    let as ← mapSubs f xs
    .ok (a :: as)

/-- `list` without `--dump` (cli/src/commands/list.rs:69-127): the rows after the header line. -/
def listRows (k : Constants) (ops : FloatOps G) (showF : G → Str) (g : Grib2) : Outcome Empty (List ListRow) :=
  mapSubs (listRow k ops showF) (SubIter.drain (g.len + 1) g.iter)

/-- `list --dump` (cli/src/commands/list.rs:128-133). -/
def listDump (k : Constants) (g : Grib2) : Outcome Empty Str := do
  let parts ← mapSubs (fun i m => do
    let d ← m.describe k
    .ok (showIndex i ++ ['\n'] ++ d ++ ['\n'])) (SubIter.drain (g.len + 1) g.iter)
  .ok parts.flatten

/-- `PredictableNumLines for ListView` (cli/src/commands/list.rs:48-63), on a fresh iterator. -/
def listNumLines (dump : Bool) (g : Grib2) : Outcome Empty Nat := do
  let len ← g.iter.sizeHint
  if dump then
    Outcome.require (decide (1 ≤ (8 + 2) * len))
    .ok ((8 + 2) * len - 1)
  else .ok (1 + len)

/-! ## `inspect` -/

/-- A line of `inspect --sections` (cli/src/commands/inspect.rs:164-175). -/
def sectionLine (i : Nat) (s : SectionInfo) : Str :=
  padLeft 5 (showNat i) ++ " │ ".toList ++ hex16 s.offset ++ " - ".toList ++ hex16 (s.offset + s.size) ++
    " │ Section ".toList ++ showNat s.num

/-- `inspect --sections` (cli/src/commands/inspect.rs:162-178). -/
def inspectSections (g : Grib2) : List Str := g.sections.zipIdx.map fun p => sectionLine p.2 p.1

/-- The cells of a line of `inspect --submessages` (cli/src/commands/inspect.rs:229-244): index, section indices (section 2
may be absent), templates. -/
structure InspectRow where
  id : Str
  sects : List Str
  templates : List Str
deriving DecidableEq, Repr

/-- `format_section_index`, `format_section_index_optional` and `format_template` without the padding
(cli/src/commands/inspect.rs:200-219). -/
def cellIndex (s : SubMessageSection) : Str := showNat s.1

def cellIndexOptional : Option SubMessageSection → Str
  | none => "-".toList
  | some s => showNat s.1

def cellTemplate : Option (Nat × Nat) → Str
  | none => "-".toList
  | some t => templateShow t

def inspectRow (i : Nat × Nat) (m : SubMessage) : Outcome Empty InspectRow := do
  let t3 ← m.s3.2.getTmplCode
  let t4 ← m.s4.2.getTmplCode
  let t5 ← m.s5.2.getTmplCode
  .ok ⟨showIndex i,
    [cellIndexOptional m.s2, cellIndex m.s3, cellIndex m.s4, cellIndex m.s5, cellIndex m.s6, cellIndex m.s7],
    [cellTemplate t3, cellTemplate t4, cellTemplate t5]⟩

/-- `inspect --submessages` (cli/src/commands/inspect.rs:197-247), the rows after the header line. -/
def inspectSubmessages (g : Grib2) : Outcome Empty (List InspectRow) :=
  mapSubs inspectRow (SubIter.drain (g.len + 1) g.iter)

/-- `inspect --templates` (cli/src/commands/inspect.rs:264-279). -/
def templateLine (k : Constants) (t : Nat × Nat) : Str :=
  match templateDescribe k t with
  | some s => padRight 8 (templateShow t) ++ " - ".toList ++ s
  | none => templateShow t

def inspectTemplates (k : Constants) (perm : List (Nat × Nat) → List (Nat × Nat)) (g : Grib2) : Outcome Empty (List Str) := do
  let ts ← g.listTemplates perm
  .ok (ts.map (templateLine k))

/-- Which parts are asked for. -/
structure InspectFlags where
  sections : Bool
  submessages : Bool
  templates : Bool
deriving DecidableEq, Repr

/-- All parts when none is asked for (cli/src/commands/inspect.rs:43-66). -/
def InspectFlags.items (f : InspectFlags) : InspectFlags :=
  if !f.sections && !f.submessages && !f.templates then ⟨true, true, true⟩ else f

def InspectFlags.count (f : InspectFlags) : Nat := f.sections.toNat + f.submessages.toNat + f.templates.toNat

/-- `PredictableNumLines for InspectView` (cli/src/commands/inspect.rs:88-100). -/
def inspectNumLines (flags : InspectFlags) (perm : List (Nat × Nat) → List (Nat × Nat)) (g : Grib2) : Outcome Empty Nat := do
  let items := flags.items
  let a := if items.sections then g.sections.length else 0
  let b ← if items.submessages then g.iter.sizeHint else .ok 0
  let c ← if items.templates then (do let ts ← g.listTemplates perm; .ok ts.length) else .ok 0
  let headers := if items.count ≥ 2 then items.count else 0
  .ok (a + b + c + headers + (items.count - 1))

/-- The number of lines that `Display for InspectView` writes (cli/src/commands/inspect.rs:102-131): titles, the lines of
the parts (with the header line of the submessages part), and empty lines between the parts. -/
def inspectLines (flags : InspectFlags) (perm : List (Nat × Nat) → List (Nat × Nat)) (g : Grib2) : Outcome Empty Nat := do
  let items := flags.items
  let a := if items.sections then (inspectSections g).length else 0
  let b ← if items.submessages then (do let rows ← inspectSubmessages g; .ok (rows.length + 1)) else .ok 0
  let c ← if items.templates then (do let ts ← g.listTemplates perm; .ok ts.length) else .ok 0
  let headers := if items.count ≥ 2 then items.count else 0
  .ok (a + b + c + headers + (items.count - 1))

/-! ## `info` -/

/-- What a block of `info` shows (cli/src/commands/info.rs:50-84): the message number, and the values in order.  The
reference time is shown by `chrono`: here as its six fields. -/
structure InfoBlock where
  message : Nat
  discipline : Str
  totalLength : Nat
  centre : Str
  subcentre : Nat
  master : Nat × Str
  localVersion : Nat × Str
  significance : Str
  refTime : List Nat
  status : Str
  dataType : Str
deriving DecidableEq, Repr

/-- A block of `info` (cli/src/commands/info.rs:30-44, 50-84).  `validTime` is `chrono`'s check of the six fields
(`Identification::ref_time`); its failure is an error that ends the program. -/
def infoBlock (k : Constants) (validTime : List Nat → Bool) (i : Nat × Nat) (m : SubMessage) : Outcome Unit (Option InfoBlock) :=
  match m.s0.2.body, m.s1.2.body with
  | some (.section0 ind), some (.section1 p) => do
    let ident : Identification := ⟨p⟩
    let time ← ident.refTimeFields
    if validTime time then do
      let centre ← ident.centreId
      let sub ← ident.subcentreId
      let master ← ident.masterTableVersion
      let loc ← ident.localTableVersion
      let sig ← ident.refTimeSignificance
      let status ← ident.prodStatus
      let ty ← ident.dataType
      .ok (some ⟨i.1, tableText k .t0_0 ind.discipline, ind.totalLength, tableText k .common11 centre, sub,
        (master, tableText k .common00 master), (loc, tableText k .t1_1 loc), tableText k .t1_2 sig, time,
        tableText k .t1_3 status, tableText k .t1_4 ty⟩)
    else .err ()
  | _, _ => .ok none

/-- The loop of `info` (cli/src/commands/info.rs:26-46): only submessages with part 0; the blocks printed so far, and the
result. -/
def infoLoop (k : Constants) (validTime : List Nat → Bool) :
    List ((Nat × Nat) × SubMessage) → List InfoBlock × Outcome Unit Unit
  | [] => ([], .ok ())
  | x :: xs =>
    if x.1.2 = 0 then
      match infoBlock k validTime x.1 x.2 with
      | .ok b =>
        let (bs, r) := infoLoop k validTime xs
        (b.toList ++ bs, r)
      | .err e => ([], .err e)
      | .panic => ([], .panic)
    else infoLoop k validTime xs

/-- `chrono`'s check of the six fields, as `Identification::ref_time` makes it (src/datatypes/sections.rs:94-137). -/
def chronoValid : List Nat → Bool
  | [year, month, day, hour, minute, second] => (withYmdAndHms year month day hour minute second).isSome
  | _ => false

/-- `info` (cli/src/commands/info.rs:23-46) on opened data; the program is `info k chronoValid`. -/
def info (k : Constants) (validTime : List Nat → Bool) (g : Grib2) : List InfoBlock × Outcome Unit Unit :=
  infoLoop k validTime (SubIter.drain (g.len + 1) g.iter)

end Grib.Cli
